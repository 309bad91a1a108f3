import Verif.Rlc.Directory
import Verif.Rlc.UlTbf
import Verif.Csn1.Si13
import Verif.Spec.RlcControl

/-!
# Messages on the common control channel

src/rlcmac/rlcmac.c:208-574 and src/rlcmac/rlcmac_prim.c:625-647: immediate assignments, paging requests and
system information type 13, as handed to RLC/MAC in L1CTL-CCCH_DATA.ind.  The message is a buffer of octets and
every read of it is checked.  Not modelled: what the downlink state machine does with an assignment (its start is
an output), the memory of primitives, logging.
-/
namespace Verif.Rlc

open Csn1 (CRes CSt Mem Si13Ctx)

/-- `GSM_MACBLOCK_LEN` of libosmocore. -/
def macBlockLen : Nat := 23

/-- `struct osmo_mobile_identity` of libosmocore, as far as looked at here. -/
inductive MobId where
  | imsi (digits : List Nat)
  | tmsi (t : Nat)
  /-- IMEI, IMEISV, none -/
  | other
  deriving DecidableEq, Repr

/-- What the handlers depend on: libosmocore's `rsl_dec_chan_nr()` (does it know the channel type) and
`osmo_mobile_identity_decode()` (`none`: an error), the answer of the layer below to L1CTL-PDCH_EST.req, what the
stack held where the decoded rest octets go, and what the uplink TBF depends on.  Any functions. -/
structure CcchEnv where
  ul : UlEnv
  chanOk : Nat → Bool
  mi : Octets → Option MobId
  estOk : Bool
  junk : Mem

/-- One entity (`struct gprs_rlcmac_entity`, gre.h:21-42): its names and its uplink TBF. -/
structure CcchGre where
  names : GreNames
  ul : Option UlTbf

/-- The state: `gre_list` and what is kept of system information type 13. -/
structure CcchSt where
  es : List CcchGre
  si13 : Si13Ctx

/-- L1CTL-PDCH_EST.req (include/osmocom/gprs/rlcmac/rlcmac_prim.h:209-224). -/
structure PdchEst where
  ts : Nat
  tsc : Nat
  ta : Nat
  fh : Bool
  arfcn : Nat
  hsn : Nat
  maio : Nat
  ma : List Nat
  deriving DecidableEq, Repr

/-- What the handlers do to the outside: primitives, and an assignment handed to the downlink state machine of an
entity (`gprs_rlcmac_tbf_start_from_ccch`). -/
inductive CcchOut where
  | pdchEst (e : PdchEst)
  /-- GMMRR-PAGE.ind with this TLLI, for the entity with this serial number -/
  | page (serial tlli : Nat)
  | dlStart (serial ts fn : Nat)
  /-- what the uplink TBF sends -/
  | ul (serial : Nat) (o : UlOut)
  deriving DecidableEq, Repr

/-- Return values. -/
inductive CcchRc where
  | zero
  | errno (e : Errno)
  /-- the return value of `rsl_dec_chan_nr()`, `osmo_mobile_identity_decode()` or the layer below -/
  | foreign
  /-- a CSN.1 error code -/
  | csn (c : Int)
  deriving DecidableEq, Repr

/-- State afterwards, outputs in order, return value. -/
structure CcchRet where
  st : CcchSt
  out : List CcchOut
  rc : CcchRc

/-- Nothing but a return value. -/
def CcchSt.ret (s : CcchSt) (rc : CcchRc) : Res CcchRet := .ok ⟨s, [], rc⟩

/-- The bits of octets. -/
def octBits (o : Octets) : List Bool := Spec.bitsOf (o.map UInt8.toNat)

/-- `_osmo_gprs_rlcmac_decode` (csn1_ts_44_018.c:612-640) on `len` octets from position `at_` of the message, where
`len` is what a `size_t` holds; `8 * len` is passed on as an `int`, and when it is negative the decoder returns
before it reads anything (csn1_dec.c:76-79).  Otherwise it is taken to read all these octets. -/
def decodeAt (b : Octets) (at_ len : Nat) (t : List Csn1.Csn) (size : Nat) (m : Mem) : Res (CRes CSt) :=
  let bits := 8 * len % 2 ^ 32
  if 2 ^ 31 ≤ bits then .ok (.fail Csn1.errBits)
  else
    match rdN b at_ len with
    | .ok o => .ok (Csn1.decodeRest (.object size) t (octBits o) len m)
    | .err e => .err e
    | .ub f => .ub f

/-! ## Immediate assignment -/

/-- What the handler takes out of the decoded rest octets (rlcmac.c:325-370, csn1_defs: `IA_RestOctets_t`). -/
inductive IaKind where
  /-- nothing for this handler -/
  | none
  | ul (m : ImmAss)
  /-- a multiblock downlink assignment: not supported -/
  | dlMulti
  | dl (tlli : Nat)
  deriving DecidableEq, Repr

/-- Member `StartingTime_t` at an address (csn1_defs.h: `StartingTime_t`; table `csn1_ts_44_060.c`). -/
def startAt (s : CSt) (a : Nat) : StartTime := .abs (s.byte a) (s.byte (a + 1)) (s.byte (a + 2))

/-- `GPRS_DynamicOrFixedAllocation_t` at address 16 of `IA_RestOctets_t`, tbf_ul_ass_fsm.c:165-185. -/
def iaDynamic (s : CSt) : ImmAss :=
  let start := if s.byte 31 = 0 then Option.none else some (startAt s 32)
  if s.byte 18 = 0 then .dynamic (s.byte 16) (s.byte 19) start else .fixed (s.byte 16) start

/-- The `switch` over the rest octets, rlcmac.c:325-372; the members of `IA_RestOctets_t` by their offsets. -/
def iaKind (s : CSt) : IaKind :=
  if s.byte 0 = 1 then
    if s.byte 8 = 0 then .ul .egprs else if s.byte 8 = 1 then .dlMulti else .none
  else if s.byte 0 = 3 then
    if s.byte 4 = 0 then
      if s.byte 8 = 0 then
        if s.byte 12 = 0 then .ul (.single (startAt s 23))
        else if s.byte 12 = 1 then
          if s.byte 18 = 0 ∨ s.byte 18 = 1 then .ul (iaDynamic s) else .none
        else .none
      else if s.byte 8 = 1 then
        .dl (s.byte 12 + 256 * s.byte 13 + 65536 * s.byte 14 + 16777216 * s.byte 15)
      else .none
    else .none
  else .none

/-- Does the entity have an uplink TBF that waits for an immediate assignment
(`gprs_rlcmac_tbf_ul_ass_wait_ccch_imm_ass`, tbf_ul_ass_fsm.c:718-721)? -/
def CcchGre.waits (g : CcchGre) : Bool :=
  match g.ul with
  | some t => t.ass == .waitImmAss
  | none => false

/-- The uplink TBF of one entity gets the assignment. -/
def ulDispatch (env : CcchEnv) (g : CcchGre) (m : ImmAss) (fn ts : Nat) : Res (CcchGre × List CcchOut) :=
  match g.ul with
  | none => .ok (g, [])
  | some t =>
    match t.rxImmAss env.ul m fn ts with
    | .ok (t', o) => .ok ({ g with ul := t' }, o.map (.ul g.names.serial))
    | .err e => .err e
    | .ub f => .ub f

/-- `gprs_rlcmac_handle_ccch_imm_ass_ul_tbf`, rlcmac.c:207-231: the first entity that waits. -/
def immAssUl (env : CcchEnv) (m : ImmAss) (fn ts : Nat) : List CcchGre → Res (List CcchGre × List CcchOut × CcchRc)
  | [] => .ok ([], [], .errno .enoent)
  | g :: gs =>
    if g.waits then
      match ulDispatch env g m fn ts with
      | .ok (g', o) => .ok (g' :: gs, o, .zero)
      | .err e => .err e
      | .ub f => .ub f
    else
      match immAssUl env m fn ts gs with
      | .ok (gs', o, rc) => .ok (g :: gs', o, rc)
      | .err e => .err e
      | .ub f => .ub f

/-- The names of all entities, for the lookups. -/
def CcchSt.dir (s : CcchSt) : GreDir := ⟨0, s.es.map CcchGre.names⟩

/-- `gprs_rlcmac_handle_ccch_imm_ass_dl_tbf`, rlcmac.c:233-261. -/
def immAssDl (s : CcchSt) (tlli fn ts : Nat) : List CcchOut × CcchRc :=
  match findTlli s.dir tlli with
  | none => ([], .errno .enoent)
  | some e => ([.dlStart e.serial ts fn], .zero)

/-- What follows the request to establish the channel, rlcmac.c:325-376. -/
def immAssDispatch (env : CcchEnv) (s : CcchSt) (k : IaKind) (fn ts : Nat) : Res CcchRet :=
  match k with
  | .none => s.ret .zero
  | .dlMulti => s.ret (.errno .enoent)
  | .dl tlli => .ok ⟨s, (immAssDl s tlli fn ts).1, (immAssDl s tlli fn ts).2⟩
  | .ul m =>
    match immAssUl env m fn ts s.es with
    | .ok (es, o, rc) => .ok ⟨{ s with es := es }, o, rc⟩
    | .err e => .err e
    | .ub f => .ub f

/-- The channel description and timing advance, rlcmac.c:289-318; octets 4 to 6 and 10 to 12 of the message
(`struct gsm48_imm_ass` of libosmocore).  `none`: the indirect encoding, which is not supported.  The mobile
allocation is copied into eight octets. -/
def iaChannel (b : Octets) : Res (Option PdchEst) := do
  let c ← rd b 4
  let d ← rd b 5
  let e ← rd b 6
  let ta ← rd b 10
  let m ← rd b 11
  if d / 16 % 2 = 0 then
    if d / 8 % 2 = 1 then .ok none
    else .ok (some ⟨c % 8, d / 32, ta, false, e + 256 * (d % 4), 0, 0, []⟩)
  else do
    let ma ← rdN b 12 (min m 8)
    .ok (some ⟨c % 8, d / 32, ta, true, 0, e % 64, e / 64 + 4 * (d % 16), ma.map UInt8.toNat⟩)

/-- The length of the rest octets as computed in `size_t`, rlcmac.c:269. -/
def iaRestLen (m : Nat) : Nat := (macBlockLen + 2 ^ 64 - (12 + m)) % 2 ^ 64

/-- The message with its rest octets decoded, rlcmac.c:289-376. -/
def immAssDecoded (env : CcchEnv) (s : CcchSt) (b : Octets) (fn : Nat) (k : IaKind) : Res CcchRet :=
  match iaChannel b with
  | .ub f => .ub f
  | .err e => .err e
  | .ok none => s.ret (.errno .enotsup)
  | .ok (some e) =>
    if env.estOk then
      match immAssDispatch env s k fn e.ts with
      | .ok r => .ok { r with out := .pdchEst e :: r.out }
      | .err e => .err e
      | .ub f => .ub f
    else .ok ⟨s, [.pdchEst e], .foreign⟩

/-- `gprs_rlcmac_handle_ccch_imm_ass`, rlcmac.c:263-377. -/
def handleImmAssMsg (env : CcchEnv) (s : CcchSt) (b : Octets) (fn : Nat) : Res CcchRet := do
  let m ← rd b 11
  let c ← rd b 4
  if env.chanOk c then
    let r ← decodeAt b (12 + m) (iaRestLen m) Csn1.t_IA_RestOctets 80 env.junk
    match r with
    | .ub f => .ub f
    | .fail e => s.ret (.csn e)
    | .ok t => immAssDecoded env s b fn (iaKind t)
  else s.ret .foreign

/-! ## Paging -/

/-- One identity is paged: GMMRR-PAGE.ind for the entity found by it, rlcmac.c:464-483, 487-506 and 555-571.
`none`: neither an IMSI nor a TMSI. -/
def pageOne (s : CcchSt) : MobId → Option (List CcchOut)
  | .imsi i => some ((findImsi s.dir i).toList.map fun e => .page e.serial e.tlli)
  | .tmsi t => some ((findPtmsi s.dir t).toList.map fun e => .page e.serial e.tlli)
  | .other => none

/-- A mobile identity of `len` octets at `at_`, which must fit the message: the checks at rlcmac.c:432-436, 449-452 and
539-542.  `none` as value: an error is returned. -/
def miAt (env : CcchEnv) (b : Octets) (at_ len : Nat) : Res (Option MobId) :=
  if macBlockLen < at_ + len then .ok none
  else
    match rdN b at_ len with
    | .ok o => .ok (env.mi o)
    | .err e => .err e
    | .ub f => .ub f

/-- Rest octets decoded: the pages of a paging request type 1, rlcmac.c:464-510. -/
def page1Out (s : CcchSt) (t : CSt) (mi1 mi2 : MobId) : CcchRet :=
  let second := if t.byte 41 = 1 then (pageOne s mi2).getD [] else []
  if t.byte 40 = 1 then
    match pageOne s mi1 with
    | none => ⟨s, [], .errno .einval⟩
    | some first => ⟨s, first ++ second, .zero⟩
  else ⟨s, second, .zero⟩

/-- From the rest octets on, rlcmac.c:454-463. -/
def page1Rest (s : CcchSt) (b : Octets) (at_ : Nat) (mi1 mi2 : MobId) : Res CcchRet :=
  if macBlockLen - at_ = 0 then s.ret .zero
  else do
    let r ← decodeAt b at_ (macBlockLen - at_) Csn1.t_P1_Rest_Octets 44 (fun _ => 0)
    match r with
    | .ub f => .ub f
    | .fail e => s.ret (.csn e)
    | .ok t => .ok (page1Out s t mi1 mi2)

/-- The second identity, whose tag is at `at_`, rlcmac.c:444-453. -/
def page1Second (env : CcchEnv) (s : CcchSt) (b : Octets) (at_ : Nat) (mi1 : MobId) : Res CcchRet :=
  if macBlockLen < at_ + 2 then s.ret (.errno .ebadmsg)
  else do
    let len ← rd b (at_ + 1)
    match miAt env b (at_ + 2) len with
    | .ub f => .ub f
    | .err e => .err e
    | .ok none => s.ret .foreign
    | .ok (some mi2) => page1Rest s b (at_ + 2 + len) mi1 mi2

/-- Behind the first identity, rlcmac.c:439-453. -/
def page1Tail (env : CcchEnv) (s : CcchSt) (b : Octets) (at_ : Nat) (mi1 : MobId) : Res CcchRet :=
  if macBlockLen < at_ + 1 then s.ret .zero
  else do
    let tag ← rd b at_
    if tag = 0x17 then page1Second env s b at_ mi1 else page1Rest s b at_ mi1 .other

/-- `gprs_rlcmac_handle_ccch_pag_req1`, rlcmac.c:400-511. -/
def handlePag1 (env : CcchEnv) (s : CcchSt) (b : Octets) : Res CcchRet := do
  let plen ← rd b 0
  if plen = 22 then s.ret .zero
  else
    let len ← rd b 4
    match miAt env b 5 len with
    | .ub f => .ub f
    | .err e => .err e
    | .ok none => s.ret .foreign
    | .ok (some mi1) => page1Tail env s b (5 + len) mi1

/-- From the rest octets on, rlcmac.c:545-573. -/
def page2Rest (s : CcchSt) (b : Octets) (at_ : Nat) (mi3 : MobId) : Res CcchRet :=
  if macBlockLen - at_ = 0 then s.ret .zero
  else do
    let r ← decodeAt b at_ (macBlockLen - at_) Csn1.t_P2_Rest_Octets 12 (fun _ => 0)
    match r with
    | .ub f => .ub f
    | .fail e => s.ret (.csn e)
    | .ok t =>
      if t.byte 11 = 1 then
        match pageOne s mi3 with
        | none => s.ret (.errno .einval)
        | some o => .ok ⟨s, o, .zero⟩
      else s.ret .zero

/-- `gprs_rlcmac_handle_ccch_pag_req2`, rlcmac.c:514-574 (the type of the two TMSIs is in `data` at offset 12). -/
def handlePag2 (env : CcchEnv) (s : CcchSt) (b : Octets) : Res CcchRet := do
  let plen ← rd b 0
  if plen = 22 then s.ret .zero
  else
    let tag ← rd b 12
    if tag ≠ 0x17 then s.ret .zero
    else
      let len ← rd b 13
      match miAt env b 14 len with
      | .ub f => .ub f
      | .err e => .err e
      | .ok none => s.ret .foreign
      | .ok (some mi3) => page2Rest s b (14 + len) mi3

/-! ## Dispatch -/

/-- `gprs_rlcmac_handle_bcch_si13` on octets 3 to 22 of the message. -/
def handleSi13Msg (s : CcchSt) (b : Octets) : Res CcchRet := do
  let o ← rdN b 3 20
  match Csn1.handleSi13 (.object 84) (octBits o) s.si13 with
  | .ok c => .ok ⟨{ s with si13 := c }, [], .zero⟩
  | .fail e => s.ret (.csn e)
  | .ub f => .ub f

/-- `rlcmac_prim_handle_l1ctl_ccch_data_ind`, rlcmac_prim.c:625-647; the message types are those of libosmocore. -/
def ccchDataInd (env : CcchEnv) (s : CcchSt) (b : Octets) (fn : Nat) : Res CcchRet := do
  let t ← rd b 2
  if t = 0x3f then handleImmAssMsg env s b fn
  else if t = 0x21 then handlePag1 env s b
  else if t = 0x22 then handlePag2 env s b
  else if t = 0x00 then handleSi13Msg s b
  else s.ret (.errno .enotsup)

end Verif.Rlc
