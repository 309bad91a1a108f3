import Verif.Llc.Entity

/-!
# LLC requests with their ciphering parameters

LLGMM-ASSIGN.req carries the algorithm (`gea`) and the key (`kc`) to be used from then on, and
LL-UNITDATA.req says whether the data is to be ciphered (`apply_gea`); see
/repo/include/osmocom/gprs/llc/llc_prim.h:109-115, 200-206.
-/
namespace Verif.Llc

/-- What the neighbours can do to LLC, with the ciphering parameters. -/
inductive CiphOp where
  | assignReq (old new gea : Nat) (kc : Octets)
  | unitdataReq (tlli sapi prio : Nat) (data : Octets) (applyGea : Bool)
  /-- all others -/
  | other (op : Op)

/-- What the code makes of them: `llc_prim_handle_llgmm_assign_req`, /repo/src/llc/llc_llgmm.c:145-231, does
not read `gea` and `kc`; `apply_gea` is handed to `gprs_llc_lle_tx_ui` by /repo/src/llc/llc_ll.c:313-318, which
uses it if `llme->algo` is not GEA0 (/repo/src/llc/llc.c:377-378).  Nothing in /repo writes `llme->algo`. -/
def CiphOp.plain : CiphOp → Op
  | .assignReq old new _ _ => .assignReq old new
  | .unitdataReq tlli sapi prio data _ => .unitdataReq tlli sapi prio data
  | .other op => op

/-- A history. -/
def Ctx.crun (c : Ctx) (ops : List CiphOp) : Ctx × List Out := c.run (ops.map CiphOp.plain)

end Verif.Llc
