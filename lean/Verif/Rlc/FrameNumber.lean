import Verif.Basic

/-!
# TDMA frame numbers

Model of /repo/src/rlcmac/sched.c:45-64, /repo/src/rlcmac/rlcmac_dec.c:432-464 and
/repo/include/osmocom/gprs/rlcmac/sched.h:17-21.  `GSM_TDMA_FN_SUM`, `GSM_TDMA_FN_INC` and `OSMO_MOD_FLR` are
libosmocore macros: addition modulo the hyperframe, increment modulo the hyperframe, and the remainder that is never
negative.
-/
namespace Verif.Rlc

/-- `GSM_TDMA_HYPERFRAME` of libosmocore: 2048 · 26 · 51 frames. -/
def hyperframe : Nat := 2715648

/-- `fn_valid`, /repo/include/osmocom/gprs/rlcmac/sched.h:17-21. -/
def fnValid (fn : Nat) : Bool := fn % 13 == 0 || fn % 13 == 4 || fn % 13 == 8

/-- `GSM_TDMA_FN_SUM` of libosmocore. -/
def fnSum (a b : Nat) : Nat := (a + b) % hyperframe

/-- `GSM_TDMA_FN_INC` of libosmocore. -/
def fnInc (a : Nat) : Nat := fnSum a 1

/-- `rrbp_list`, /repo/src/rlcmac/sched.c:48-53. -/
def rrbpList : List Nat := [13, 17, 21, 26]

/-- `rrbp2fn`, /repo/src/rlcmac/sched.c:45-64. -/
def rrbp2fn (cur rrbp : Nat) : Res Nat :=
  match rrbpList[rrbp]? with
  | none => .ub .assertFail
  | some off =>
    let fn := fnSum cur off
    if fnValid fn then .ok fn
    else if fnValid (fnInc fn) then .ok (fnInc fn) else .ub .assertFail

/-- The sum of `k_to_fn` before its check, /repo/src/rlcmac/rlcmac_dec.c:450-461. -/
def kToFnRaw (k cur : Nat) : Nat :=
  if k % 3 = 2 then fnSum cur (5 + 4 * k + k / 3)
  else
    let fn := fnSum cur (4 + 4 * k + k / 3)
    if fnValid fn then fn else fnInc fn

/-- `k_to_fn`, /repo/src/rlcmac/rlcmac_dec.c:447-464. -/
def kToFn (k cur : Nat) : Res Nat := if fnValid (kToFnRaw k cur) then .ok (kToFnRaw k cur) else .ub .assertFail

/-- The relative frame number in `TBF_StartingTime_to_fn`, /repo/src/rlcmac/rlcmac_dec.c:436-439 (a `uint16_t`); it
is handed to libosmocore's `gsm_rfn2fn`, which is not part of /repo. -/
def startingTimeRfn (t1p t3 t2 : Nat) : Nat :=
  (51 * (((t3 : Int) - t2) % 26).toNat + t3 + 51 * 26 * t1p) % 65536

end Verif.Rlc
