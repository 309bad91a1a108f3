import Verif.Basic

/-!
# Who frees a primitive

Every primitive lives in a message buffer (`msgb`), which the layer it is handed to has to free.  This models the
functions that take primitives, with what they do to that buffer.  What the handlers do otherwise is modelled elsewhere;
here only their return value `rc`, and whether the entity a primitive is for was found, matter.  None of the inner
functions frees the buffer.
-/
namespace Verif.Prim

/-- `enum osmo_prim_operation` (libosmocore). -/
inductive Op where
  | request | response | indication | confirm
  deriving DecidableEq, Repr

/-- `struct osmo_prim_hdr`: the numbers of SAP and type (any values) and the operation. -/
structure Hdr where
  sap : Nat
  typ : Nat
  op : Op
  deriving DecidableEq, Repr

/-- The message buffer of a primitive. -/
inductive Msg where
  | live | freed
  deriving DecidableEq, Repr

/-- `msgb_free(msg)`. -/
def Msg.free : Msg → Res Msg
  | .live => .ok .freed
  | .freed => .ub .doubleFree

/-- `msgb_free(prim->oph.msg)`: the primitive is inside of the buffer. -/
def Msg.freeIn : Msg → Res Msg
  | .live => .ok .freed
  | .freed => .ub .useAfterFree

/-- What the inner functions find and return: the entity the primitive is for exists; the assertions about the contents
of the primitive hold; the value an inner function returns; the context is that of a mobile station (not of an SGSN). -/
structure Inner where
  found : Bool
  good : Bool
  rc : Int
  ms : Bool
  deriving DecidableEq, Repr

/-- `ENOTSUP`. -/
def eNotSup : Int := -95

/-- `EINVAL`, `EIO`, `ENOENT`, `ENOKEY`: the value returned when nothing was found. -/
def eOther : Int := -22

/-- `gprs_llc_prim_handle_unsupported`, /repo/src/llc/llc_prim.c:127-132; `gprs_sndcp_prim_handle_unsupported` and
`gprs_sndcp_prim_handle_llc_ll_unsupported`, /repo/src/sndcp/sndcp_prim.c:294-306; the three of
/repo/src/sm/sm_prim.c:198-217; the two of /repo/src/gmm/gmm_prim.c:468-480; `gprs_rlcmac_prim_handle_unsupported`,
/repo/src/rlcmac/rlcmac_prim.c:373-378. -/
def unsupported (m : Msg) : Res (Msg × Int) := do
  let m ← m.freeIn
  .ok (m, eNotSup)

/-- The end of most functions: "Special return value '1' means: do not free", with the buffer remembered. -/
def endSaved (r : Msg × Int) : Res (Msg × Int) :=
  if r.2 ≠ 1 then do
    let m ← r.1.free
    .ok (m, r.2)
  else .ok (r.1, 0)

/-- The same where the buffer is looked up in the primitive. -/
def endIn (r : Msg × Int) : Res (Msg × Int) :=
  if r.2 ≠ 1 then do
    let m ← r.1.freeIn
    .ok (m, r.2)
  else .ok (r.1, 0)

/-- Handlers that free the primitive at the end, whatever happened (`ret_free:`). -/
def freeAtEnd (m : Msg) (rc : Int) : Res (Msg × Int) := do
  let m ← m.freeIn
  .ok (m, rc)

/-! ## LLC -/

/-- `gprs_llc_prim_llgmm_upper_down`, /repo/src/llc/llc_llgmm.c:364-410, with its handlers (lines 145-361). -/
def llgmmDown (h : Hdr) (i : Inner) (m : Msg) : Res (Msg × Int) :=
  match h.typ, h.op with
  | 0, .request => freeAtEnd m i.rc
  | 1, .request => if ¬ i.ms then freeAtEnd m (if i.found then i.rc else eOther) else .ub .assertFail
  | 2, .request => if i.ms then freeAtEnd m (if i.found then i.rc else eOther) else .ub .assertFail
  | 3, .request => freeAtEnd m (if i.found then 0 else eOther)
  | 4, .request => freeAtEnd m (if i.found then 0 else eOther)
  | 6, .request => if ¬ i.ms then unsupported m else .ub .assertFail
  | 8, .request => unsupported m
  | 9, .request => unsupported m
  | _, _ => freeAtEnd m eNotSup

/-- `gprs_llc_prim_ll_upper_down`, /repo/src/llc/llc_ll.c:326-355, with its handlers (lines 231-323). -/
def llDown (h : Hdr) (i : Inner) (m : Msg) : Res (Msg × Int) :=
  match h.typ, h.op with
  | 1, .request => freeAtEnd m (if i.found then i.rc else eOther)
  | 3, .request => freeAtEnd m (if i.found then i.rc else eOther)
  | 3, .response => freeAtEnd m (if i.found then i.rc else eOther)
  | 5, .request => freeAtEnd m i.rc
  | _, _ => unsupported m

/-- `osmo_gprs_llc_prim_upper_down`, /repo/src/llc/llc_prim.c:152-170. -/
def llcUpperDown (h : Hdr) (i : Inner) : Res (Msg × Int) :=
  match h.sap with
  | 0 => llgmmDown h i .live
  | 1 => llDown h i .live
  | _ => unsupported .live

/-- `gprs_llc_prim_lower_up_grr`, /repo/src/llc/llc_grr.c:75-148. -/
def grrUp (h : Hdr) (i : Inner) (m : Msg) : Res (Msg × Int) :=
  match h.typ, h.op with
  | 0, .indication => unsupported m
  | 1, .indication => .ok (m, if i.found then i.rc else 0)
  | _, _ => .ok (m, eNotSup)

/-- `gprs_llc_prim_lower_up_bssgp`, /repo/src/llc/llc_bssgp.c:79-142. -/
def bssgpUp (h : Hdr) (i : Inner) (m : Msg) : Res (Msg × Int) :=
  match h.typ, h.op with
  | 1, .indication => .ok (m, if i.found then i.rc else 0)
  | _, _ => .ok (m, eNotSup)

/-- `osmo_gprs_llc_prim_lower_up`, /repo/src/llc/llc_prim.c:192-220. -/
def llcLowerUp (h : Hdr) (i : Inner) : Res (Msg × Int) := do
  let r ← match h.sap with
    | 2 => if i.ms then grrUp h i .live else .ub .assertFail
    | 3 => if ¬ i.ms then bssgpUp h i .live else .ub .assertFail
    | _ => .ok (.live, eOther)
  endSaved r

/-! ## SNDCP -/

/-- The handlers of /repo/src/sndcp/sndcp_prim.c:327-418: SN-DATA.req of an entity that exists is freed by
`gprs_sndcp_prim_handle_unsupported` and at the end. -/
def snDown (h : Hdr) (i : Inner) (m : Msg) : Res (Msg × Int) :=
  match h.typ, h.op with
  | 0, .request =>
    if i.good then
      if i.found then do
        let r ← unsupported m
        freeAtEnd r.1 r.2
      else freeAtEnd m eOther
    else .ub .assertFail
  | 1, .request => if i.good then freeAtEnd m (if i.found then i.rc else eOther) else .ub .assertFail
  | 2, .request => freeAtEnd m (if i.found then i.rc else eOther)
  | 2, .response => freeAtEnd m (if i.found then i.rc else eOther)
  | _, _ => unsupported m

/-- `osmo_gprs_sndcp_prim_upper_down`, /repo/src/sndcp/sndcp_prim.c:421-449. -/
def sndcpUpperDown (h : Hdr) (i : Inner) : Res (Msg × Int) :=
  if h.sap = 0 then snDown h i .live else unsupported .live

/-- `gprs_sndcp_prim_lower_up_llc_ll`, /repo/src/sndcp/sndcp_prim.c:560-584, with its handlers (lines 468-557). -/
def sndcpLl (h : Hdr) (i : Inner) (m : Msg) : Res (Msg × Int) :=
  match h.typ, h.op with
  | 5, .indication => if i.good then .ok (m, if i.found then i.rc else eOther) else .ub .assertFail
  | 1, .confirm => .ok (m, if i.found then i.rc else eOther)
  | 3, .indication => .ok (m, if i.found then i.rc else eOther)
  | 3, .confirm => .ok (m, if i.found then i.rc else eOther)
  | 7, .indication => .ok (m, if i.found then 0 else eOther)
  | _, _ => unsupported m

/-- `osmo_gprs_sndcp_prim_lower_up`, /repo/src/sndcp/sndcp_prim.c:587-611. -/
def sndcpLowerUp (h : Hdr) (i : Inner) : Res (Msg × Int) := do
  let r ← if h.sap = 1 then sndcpLl h i .live
    else do
      let r ← unsupported .live
      .ok (r.1, 1)
  endSaved r

/-- The switch of `osmo_gprs_sndcp_prim_dispatch_snsm`, /repo/src/sndcp/sndcp_prim.c:772-790, with its handlers
(lines 632-757). -/
def snsmUp (h : Hdr) (i : Inner) (m : Msg) : Res (Msg × Int) :=
  match h.typ, h.op with
  | 0, .indication => .ok (m, i.rc)
  | 1, .indication => .ok (m, if i.found then i.rc else eOther)
  | _, _ => unsupported m

/-- `osmo_gprs_sndcp_prim_dispatch_snsm`, /repo/src/sndcp/sndcp_prim.c:760-798. -/
def sndcpSnsm (h : Hdr) (i : Inner) : Res (Msg × Int) :=
  if h.sap ≠ 1 then unsupported .live
  else do
    let r ← snsmUp h i .live
    endSaved r

/-! ## SM -/

/-- `osmo_gprs_sm_prim_upper_down` and `gprs_sm_prim_handle_smreg`, /repo/src/sm/sm_prim.c:235-332. -/
def smUpperDown (h : Hdr) (i : Inner) : Res (Msg × Int) := do
  let r ← if h.sap = 0 then
      match h.typ, h.op with
      | 0, .request => if i.good then .ok (Msg.live, i.rc) else .ub .assertFail
      | _, _ => unsupported .live
    else do
      let r ← unsupported .live
      .ok (r.1, 1)
  endIn r

/-- `osmo_gprs_sm_prim_sndcp_upper_down` and `gprs_sm_prim_handle_sndcp_snsm`, /repo/src/sm/sm_prim.c:351-452. -/
def smSndcpDown (h : Hdr) (i : Inner) : Res (Msg × Int) := do
  let r ← if h.sap = 1 then
      match h.typ, h.op with
      | 0, .response => .ok (Msg.live, if i.found then i.rc else eOther)
      | 1, .response => .ok (Msg.live, if i.found then i.rc else eOther)
      | _, _ => unsupported .live
    else do
      let r ← unsupported .live
      .ok (r.1, 1)
  endIn r

/-- `osmo_gprs_sm_prim_lower_up`, /repo/src/sm/sm_prim.c:470-491. -/
def smLowerUp (_ : Hdr) (_ : Inner) : Res (Msg × Int) := do
  let r ← unsupported .live
  endSaved (r.1, 1)

/-- `osmo_gprs_sm_prim_gmm_lower_up` and `gprs_sm_prim_handle_gmmsm`, /repo/src/sm/sm_prim.c:509-659. -/
def smGmmUp (h : Hdr) (i : Inner) : Res (Msg × Int) := do
  let r ← if h.sap = 4 then
      match h.typ, h.op with
      | 0, .confirm => .ok (Msg.live, if i.found then i.rc else eOther)
      | 1, .indication => .ok (Msg.live, if i.found then i.rc else eOther)
      | 2, .indication => .ok (Msg.live, if i.found then i.rc else eOther)
      | 3, .indication => .ok (Msg.live, if i.found then 0 else eOther)
      | _, _ => do
        let r ← unsupported .live
        .ok (r.1, 1)
    else do
      let r ← unsupported .live
      .ok (r.1, 1)
  endSaved r

/-! ## GMM -/

/-- `osmo_gprs_gmm_prim_upper_down` with `gprs_gmm_prim_handle_gmmreg` and `gprs_gmm_prim_handle_gmmsm`,
/repo/src/gmm/gmm_prim.c:501-713. -/
def gmmUpperDown (h : Hdr) (i : Inner) : Res (Msg × Int) := do
  let r ← match h.sap with
    | 0 => match h.typ, h.op with
      | 0, .request => .ok (Msg.live, i.rc)
      | 1, .request => .ok (Msg.live, if i.found then i.rc else eOther)
      | 2, .response => .ok (Msg.live, if i.found then i.rc else eOther)
      | _, _ => unsupported .live
    | 4 => match h.typ, h.op with
      | 0, .request => .ok (Msg.live, i.rc)
      | 2, .request => .ok (Msg.live, if i.found then i.rc else eOther)
      | _, _ => do
        let r ← unsupported .live
        .ok (r.1, 1)
    | _ => do
      let r ← unsupported .live
      .ok (r.1, 1)
  endIn r

/-- `osmo_gprs_gmm_prim_lower_up` with `gprs_gmm_prim_handle_gmmrr` and `gprs_gmm_prim_handle_gmmbssgp`,
/repo/src/gmm/gmm_prim.c:733-877. -/
def gmmLowerUp (h : Hdr) (i : Inner) : Res (Msg × Int) := do
  let r ← match h.sap with
    | 1 => match h.typ, h.op with
      | 1, .indication => .ok (Msg.live, if i.found then i.rc else eOther)
      | 2, .indication => .ok (Msg.live, if i.found then 0 else eOther)
      | _, _ => do
        let r ← unsupported .live
        .ok (r.1, 1)
    | _ => do
      let r ← unsupported .live
      .ok (r.1, 1)
  endSaved r

/-- `osmo_gprs_gmm_prim_llc_lower_up` with `gprs_gmm_prim_handle_llgmm` and `gprs_gmm_prim_handle_ll`,
/repo/src/gmm/gmm_prim.c:894-1012. -/
def gmmLlcUp (h : Hdr) (i : Inner) : Res (Msg × Int) := do
  let r ← match h.sap with
    | 0 => match h.typ, h.op with
      | 5, .indication => do
        let r ← unsupported .live
        .ok (r.1, 1)
      | 8, .indication => do
        let r ← unsupported .live
        .ok (r.1, 1)
      | 8, .confirm => do
        let r ← unsupported .live
        .ok (r.1, 1)
      | _, _ => .ok (Msg.live, 0)
    | 1 => match h.typ, h.op with
      | 5, .indication =>
        if i.found then (if i.good then .ok (Msg.live, i.rc) else .ub .assertFail) else .ok (Msg.live, eOther)
      | _, _ => do
        let r ← unsupported .live
        .ok (r.1, 1)
    | _ => do
      let r ← unsupported .live
      .ok (r.1, 1)
  endSaved r

/-! ## RLC/MAC -/

/-- `osmo_gprs_rlcmac_prim_upper_down` with `gprs_rlcmac_prim_grr_upper_down` and `gprs_rlcmac_prim_gmmrr_upper_down`,
/repo/src/rlcmac/rlcmac_prim.c:384-548. -/
def rlcmacUpperDown (h : Hdr) (i : Inner) : Res (Msg × Int) :=
  match h.sap with
  | 0 => match h.typ, h.op with
    | 0, .request => unsupported .live
    | 1, .request => freeAtEnd .live i.rc
    | _, _ => .ok (Msg.live, eNotSup)
  | 1 => match h.typ, h.op with
    | 0, .request => freeAtEnd .live i.rc
    | _, _ => .ok (Msg.live, eNotSup)
  | _ => unsupported .live

/-- `osmo_gprs_rlcmac_prim_lower_up` with `gprs_rlcmac_prim_l1ctl_lower_up`,
/repo/src/rlcmac/rlcmac_prim.c:572-741. -/
def rlcmacLowerUp (h : Hdr) (i : Inner) : Res (Msg × Int) := do
  let r ← match h.sap with
    | 2 => match h.typ, h.op with
      | 3, .indication => .ok (Msg.live, i.rc)
      | 2, .indication => .ok (Msg.live, i.rc)
      | 2, .confirm => .ok (Msg.live, 0)
      | 1, .indication => .ok (Msg.live, i.rc)
      | 8, .indication => .ok (Msg.live, 0)
      | _, _ => .ok (Msg.live, eNotSup)
    | _ => .ok (Msg.live, eOther)
  endSaved r

/-! ## Callbacks -/

/-- The functions that hand primitives to a callback, which returns `rc`; returning 1 it keeps the primitive (it is
then `freed` as far as the library is concerned).  `gprs_llc_prim_call_down_cb`, /repo/src/llc/llc_prim.c:176-189;
`gprs_sndcp_prim_call_up_cb`, `gprs_sndcp_prim_call_down_cb`, `gprs_sndcp_prim_call_snsm_cb`,
/repo/src/sndcp/sndcp_prim.c:312-324, 454-466, 617-629; `gprs_sm_prim_call_sndcp_up_cb`,
`gprs_sm_prim_call_gmm_down_cb`, /repo/src/sm/sm_prim.c:335-348, 493-506; `gprs_gmm_prim_call_up_cb`,
`gprs_gmm_prim_call_down_cb`, `gprs_gmm_prim_call_llc_down_cb`, /repo/src/gmm/gmm_prim.c:486-498, 719-731, 879-892;
`gprs_rlcmac_prim_call_up_cb`, `gprs_rlcmac_prim_call_down_cb`, /repo/src/rlcmac/rlcmac_prim.c:426-439, 554-570. -/
def callCb (rc : Int) : Res (Msg × Int) :=
  let m := if rc = 1 then Msg.freed else .live
  if rc ≠ 1 then do
    let m ← m.freeIn
    .ok (m, rc)
  else .ok (m, 0)

/-- `gprs_llc_prim_call_up_cb`, /repo/src/llc/llc_prim.c:138-149: the same, but 1 is returned to the caller. -/
def callCbLlcUp (rc : Int) : Res (Msg × Int) :=
  let m := if rc = 1 then Msg.freed else .live
  if rc ≠ 1 then do
    let m ← m.freeIn
    .ok (m, rc)
  else .ok (m, rc)

/-- `gprs_sm_prim_call_up_cb` and `gprs_sm_prim_call_down_cb`, /repo/src/sm/sm_prim.c:223-232, 458-467: always freed. -/
def callCbSm (rc : Int) : Res (Msg × Int) := do
  let m := if rc = 1 then Msg.freed else .live
  let m ← m.freeIn
  .ok (m, rc)

end Verif.Prim
