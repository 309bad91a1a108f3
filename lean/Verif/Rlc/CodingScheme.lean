import Verif.Basic

/-!
# Coding schemes

Model of /repo/src/rlcmac/coding_scheme.c.  A coding scheme is its number in the C enumeration
(/repo/include/osmocom/gprs/rlcmac/coding_scheme.h:22-40).
-/
namespace Verif.Rlc

/-- `GPRS_RLCMAC_CS_UNKNOWN`. -/
abbrev csUnknown : Nat := 0
/-- `GPRS_RLCMAC_CS_1`. -/
abbrev cs1 : Nat := 1
/-- `GPRS_RLCMAC_CS_2`. -/
abbrev cs2 : Nat := 2
/-- `GPRS_RLCMAC_CS_3`. -/
abbrev cs3 : Nat := 3
/-- `GPRS_RLCMAC_CS_4`. -/
abbrev cs4 : Nat := 4
/-- `GPRS_RLCMAC_MCS_1`. -/
abbrev mcs1 : Nat := 5
/-- `GPRS_RLCMAC_MCS_2`. -/
abbrev mcs2 : Nat := 6
/-- `GPRS_RLCMAC_MCS_3`. -/
abbrev mcs3 : Nat := 7
/-- `GPRS_RLCMAC_MCS_4`. -/
abbrev mcs4 : Nat := 8
/-- `GPRS_RLCMAC_MCS_5`. -/
abbrev mcs5 : Nat := 9
/-- `GPRS_RLCMAC_MCS_6`. -/
abbrev mcs6 : Nat := 10
/-- `GPRS_RLCMAC_MCS_7`. -/
abbrev mcs7 : Nat := 11
/-- `GPRS_RLCMAC_MCS_8`. -/
abbrev mcs8 : Nat := 12
/-- `GPRS_RLCMAC_MCS_9`. -/
abbrev mcs9 : Nat := 13

/-- `enum gprs_rlcmac_family`, /repo/src/rlcmac/coding_scheme.c:41-46. -/
inductive Family where
  | invalid | a | b | c
  deriving DecidableEq, Repr

/-- One entry of `mcs_info`, /repo/src/rlcmac/coding_scheme.c:48-58, without the header bits (never set). `gprsHdr`:
the header type is `GPRS_RLCMAC_HEADER_GPRS_DATA`. -/
structure McsInfo where
  ulBytes : Nat
  ulExt : Nat
  dlBytes : Nat
  dlExt : Nat
  dataBytes : Nat
  gprsHdr : Bool
  family : Family
  deriving DecidableEq, Repr

/-- `mcs_info`, /repo/src/rlcmac/coding_scheme.c:58-89. -/
def mcsInfo : List McsInfo := [
  ⟨0, 0, 0, 0, 0, false, .invalid⟩,
  ⟨23, 0, 23, 0, 20, true, .invalid⟩,
  ⟨33, 7, 33, 7, 30, true, .invalid⟩,
  ⟨39, 3, 39, 3, 36, true, .invalid⟩,
  ⟨53, 7, 53, 7, 50, true, .invalid⟩,
  ⟨26, 1, 26, 1, 22, false, .c⟩,
  ⟨32, 1, 32, 1, 28, false, .b⟩,
  ⟨41, 1, 41, 1, 37, false, .a⟩,
  ⟨48, 1, 48, 1, 44, false, .c⟩,
  ⟨60, 7, 59, 6, 56, false, .b⟩,
  ⟨78, 7, 77, 6, 74, false, .a⟩,
  ⟨118, 2, 117, 4, 56, false, .b⟩,
  ⟨142, 2, 141, 4, 68, false, .a⟩,
  ⟨154, 2, 153, 4, 74, false, .a⟩]

/-- `mcs_info[cs]` for a scheme inside the table. -/
def info (cs : Nat) : McsInfo := mcsInfo.getD cs ⟨0, 0, 0, 0, 0, false, .invalid⟩

/-- `gprs_rlcmac_mcs_is_gprs`, /repo/src/rlcmac/coding_scheme.c:96-99. -/
def isGprs (cs : Nat) : Bool := decide (cs1 ≤ cs) && decide (cs ≤ cs4)

/-- `gprs_rlcmac_mcs_is_edge`, /repo/src/rlcmac/coding_scheme.c:101-104. -/
def isEdge (cs : Nat) : Bool := decide (mcs1 ≤ cs) && decide (cs ≤ mcs9)

/-- `gprs_rlcmac_mcs_is_edge_gmsk`, /repo/src/rlcmac/coding_scheme.c:106-112. -/
def isEdgeGmsk (cs : Nat) : Bool := isEdge cs && decide (cs ≤ mcs4)

/-- `gprs_rlcmac_mcs_chan_code`, /repo/src/rlcmac/coding_scheme.c:115-125. -/
def chanCode (cs : Nat) : Nat := if isGprs cs then cs - cs1 else if isEdge cs then cs - mcs1 else 0

/-- `gprs_rlcmac_mcs_size_ul`, /repo/src/rlcmac/coding_scheme.c:204-207. -/
def sizeUl (cs : Nat) : Nat := (info cs).ulBytes + if (info cs).ulExt = 0 then 0 else 1

/-- `gprs_rlcmac_mcs_size_dl`, /repo/src/rlcmac/coding_scheme.c:209-212. -/
def sizeDl (cs : Nat) : Nat := (info cs).dlBytes + if (info cs).dlExt = 0 then 0 else 1

/-- `gprs_rlcmac_mcs_used_size_ul`, /repo/src/rlcmac/coding_scheme.c:214-220. -/
def usedSizeUl (cs : Nat) : Nat := if (info cs).gprsHdr then (info cs).ulBytes else sizeUl cs

/-- `gprs_rlcmac_mcs_used_size_dl`, /repo/src/rlcmac/coding_scheme.c:222-228. -/
def usedSizeDl (cs : Nat) : Nat := if (info cs).gprsHdr then (info cs).dlBytes else sizeDl cs

/-- `gprs_rlcmac_mcs_get_by_size_ul`, /repo/src/rlcmac/coding_scheme.c:127-145. -/
def getBySizeUl (size : Nat) : Nat :=
  match size with
  | 23 => cs1
  | 27 => mcs1
  | 33 => mcs2
  | 34 => cs2
  | 40 => cs3
  | 42 => mcs3
  | 49 => mcs4
  | 54 => cs4
  | 61 => mcs5
  | 79 => mcs6
  | 119 => mcs7
  | 143 => mcs8
  | 155 => mcs9
  | _ => csUnknown

/-- `gprs_rlcmac_mcs_get_by_size_dl`, /repo/src/rlcmac/coding_scheme.c:147-166. -/
def getBySizeDl (size : Nat) : Nat :=
  match size with
  | 23 => cs1
  | 27 => mcs1
  | 33 => mcs2
  | 34 => cs2
  | 40 => cs3
  | 42 => mcs3
  | 49 => mcs4
  | 54 => cs4
  | 61 => mcs5
  | 79 => mcs6
  | 119 => mcs7
  | 143 => mcs8
  | 155 => mcs9
  | _ => csUnknown

/-- `gprs_rlcmac_mcs_get_gprs_by_num`, /repo/src/rlcmac/coding_scheme.c:168-173. -/
def getGprsByNum (num : Nat) : Nat := if num < 1 ∨ num > 4 then csUnknown else cs1 + (num - 1)

/-- `gprs_rlcmac_mcs_get_egprs_by_num`, /repo/src/rlcmac/coding_scheme.c:175-180. -/
def getEgprsByNum (num : Nat) : Nat := if num < 1 ∨ num > 9 then csUnknown else mcs1 + (num - 1)

/-- `enum gprs_rlcmac_coding_scheme_kind`, /repo/include/osmocom/gprs/rlcmac/coding_scheme.h:42-46. -/
inductive CsKind where
  | gprs | egprsGmsk | egprs
  deriving DecidableEq, Repr

/-- `gprs_rlcmac_mcs_is_compat_kind`, /repo/src/rlcmac/coding_scheme.c:187-196. -/
def isCompatKind (cs : Nat) : CsKind → Bool
  | .gprs => isGprs cs
  | .egprsGmsk => isEdgeGmsk cs
  | .egprs => isEdge cs

/-- `gprs_rlcmac_mcs_inc_kind`, /repo/src/rlcmac/coding_scheme.c:260-272. -/
def incKind (cs : Nat) (mode : CsKind) : Nat :=
  if !isCompatKind cs mode then cs else if !isCompatKind (cs + 1) mode then cs else cs + 1

/-- `gprs_rlcmac_mcs_dec_kind`, /repo/src/rlcmac/coding_scheme.c:274-286. -/
def decKind (cs : Nat) (mode : CsKind) : Nat :=
  if !isCompatKind cs mode then cs else if !isCompatKind (cs - 1) mode then cs else cs - 1

/-- `gprs_rlcmac_mcs_is_family_compat`, /repo/src/rlcmac/coding_scheme.c:316-325. -/
def isFamilyCompat (cs o : Nat) : Bool :=
  decide (cs = o) || (decide ((info cs).family ≠ .invalid) && decide ((info cs).family = (info o).family))

/-- `egprs_reseg`, /repo/src/rlcmac/coding_scheme.c:413-423. -/
def egprsReseg : List (List Nat) := [
    [mcs1, mcs1, mcs1, mcs1, mcs1, mcs1, mcs1, mcs1, mcs1],
    [mcs2, mcs2, mcs2, mcs2, mcs2, mcs2, mcs2, mcs2, mcs2],
    [mcs3, mcs3, mcs3, mcs3, mcs3, mcs3, mcs3, mcs3, mcs3],
    [mcs1, mcs1, mcs1, mcs4, mcs4, mcs4, mcs4, mcs4, mcs4],
    [mcs2, mcs2, mcs2, mcs2, mcs5, mcs5, mcs7, mcs7, mcs7],
    [mcs3, mcs3, mcs3, mcs3, mcs3, mcs6, mcs6, mcs6, mcs9],
    [mcs2, mcs2, mcs2, mcs2, mcs5, mcs5, mcs7, mcs7, mcs7],
    [mcs3, mcs3, mcs3, mcs3, mcs3, mcs6, mcs6, mcs8, mcs8],
    [mcs3, mcs3, mcs3, mcs3, mcs3, mcs6, mcs6, mcs6, mcs9]]

/-- `egprs_no_reseg`, /repo/src/rlcmac/coding_scheme.c:427-437. -/
def egprsNoReseg : List (List Nat) := [
    [mcs1, mcs1, mcs1, mcs1, mcs1, mcs1, mcs1, mcs1, mcs1],
    [mcs2, mcs2, mcs2, mcs2, mcs2, mcs2, mcs2, mcs2, mcs2],
    [mcs3, mcs3, mcs3, mcs3, mcs3, mcs3, mcs3, mcs3, mcs3],
    [mcs4, mcs4, mcs4, mcs4, mcs4, mcs4, mcs4, mcs4, mcs4],
    [mcs5, mcs5, mcs5, mcs5, mcs5, mcs5, mcs7, mcs7, mcs7],
    [mcs6, mcs6, mcs6, mcs6, mcs6, mcs6, mcs6, mcs6, mcs9],
    [mcs5, mcs5, mcs5, mcs5, mcs5, mcs5, mcs7, mcs7, mcs7],
    [mcs6, mcs6, mcs6, mcs6, mcs6, mcs6, mcs6, mcs8, mcs8],
    [mcs6, mcs6, mcs6, mcs6, mcs6, mcs6, mcs6, mcs6, mcs9]]

/-- `gprs_rlcmac_get_retx_mcs`, /repo/src/rlcmac/coding_scheme.c:406-439. -/
def getRetxMcs (initial commanded : Nat) (resegment : Bool) : Res Nat :=
  if !isEdge initial || !isEdge commanded then .ub .assertFail
  else
    match ((if resegment then egprsReseg else egprsNoReseg)[chanCode initial]?.getD [])[chanCode commanded]? with
    | some m => .ok m
    | none => .ub .outOfBounds

end Verif.Rlc
