import Verif.Llc.Pdu
import Verif.Llc.Xid

/-!
# Model of the LLC entities

/repo/src/llc/llc.c (logical link entities and their management), the LL and LLGMM primitives of
/repo/src/llc/llc_ll.c and /repo/src/llc/llc_llgmm.c, and the reception path of
/repo/src/llc/llc_grr.c and /repo/src/llc/llc_bssgp.c.

Simplifications, valid for the whole file:
* `llme->algo` is written nowhere in /repo (it stays 0 = GEA0), so the ciphering branches of
  /repo/src/llc/llc.c:377, 827-836 and 842-844 are not modelled;
* callbacks into the neighbouring layers are modelled as outputs and return 0; what the upper layer
  does in response is a later operation of the history.  (The modelled functions touch no state after
  the callback, except `lle->xid` in /repo/src/llc/llc.c:691-693.)
* the protocol states `lle->state`/`llme->state`, `retrans_ctr` and `age_timestamp`, which no modelled
  function reads, are left out;
* `talloc` succeeds; the 4088 octets of tail room of a freshly allocated primitive are never exhausted
  by frames of at most 1520+6 octets.
-/
namespace Verif.Llc

/-- `enum osmo_gprs_llc_location`, /repo/include/osmocom/gprs/llc/llc.h:11-15. -/
inductive Location where
  | ms | sgsn
  deriving DecidableEq, Repr

/-- `TLLI_UNASSIGNED`, /repo/include/osmocom/gprs/llc/llc_private.h:22. -/
def tlliUnassigned : Nat := 0xffffffff

/-- `struct gprs_llc_params`, /repo/include/osmocom/gprs/llc/llc_private.h:142-152. -/
structure Params where
  iovIExp : Nat := 0
  t200 : Nat := 0
  n200 : Nat := 0
  n201u : Nat := 0
  n201i : Nat := 0
  mD : Nat := 0
  mU : Nat := 0
  kD : Nat := 0
  kU : Nat := 0
  deriving DecidableEq, Repr

/-- `llc_default_params`, /repo/src/llc/llc.c:61-127. -/
def defaultParams : Nat → Params
  | 1 => { t200 := 5, n200 := 3, n201u := 400 }
  | 2 => { t200 := 5, n200 := 3, n201u := 270 }
  | 3 => { iovIExp := 27, t200 := 5, n200 := 3, n201u := 500, n201i := 1503, mD := 1520, mU := 1520, kD := 16, kU := 16 }
  | 5 => { iovIExp := 27, t200 := 10, n200 := 3, n201u := 500, n201i := 1503, mD := 760, mU := 760, kD := 8, kU := 8 }
  | 7 => { t200 := 20, n200 := 3, n201u := 270 }
  | 8 => { t200 := 20, n200 := 3, n201u := 270 }
  | 9 => { iovIExp := 27, t200 := 20, n200 := 3, n201u := 500, n201i := 1503, mD := 380, mU := 380, kD := 4, kU := 4 }
  | 11 => { iovIExp := 27, t200 := 40, n200 := 3, n201u := 500, n201i := 1503, mD := 190, mU := 190, kD := 2, kU := 2 }
  | _ => {}

/-- `struct gprs_llc_lle`, /repo/include/osmocom/gprs/llc/llc_private.h:181-230.  `xid`/`rxXid` are the
stored XID arrays; `NULL` (always with length 0) is the empty list. -/
structure Lle where
  sapi : Nat
  params : Params
  vuSend : Nat := 0
  vuRecv : Nat := 0
  vuRecvLast : Nat := 0
  vuRecvDup : Nat := 0
  ocSend : Nat := 0
  ocRecv : Nat := 0
  xid : List XidField := []
  rxXid : List XidField := []
  deriving DecidableEq, Repr

/-- `struct gprs_llc_llme`, /repo/include/osmocom/gprs/llc/llc_private.h:235-264. -/
structure Llme where
  tlli : Nat
  oldTlli : Nat := tlliUnassigned
  suspended : Bool := false
  iovUi : Nat := 0
  lle : Nat → Lle

/-- `struct gprs_llc_ctx`, /repo/include/osmocom/gprs/llc/llc_private.h:272-280; the list head is the
most recently allocated entity. -/
structure Ctx where
  loc : Location
  llmes : List Llme := []

/-- Primitives LLC hands to its neighbours. -/
inductive Out where
  /-- GRR-UNITDATA.req (`bssgp = false`) or BSSGP-DL-UNITDATA.req (`bssgp = true`) -/
  | down (bssgp : Bool) (tlli sapi prio : Nat) (pdu : Octets)
  /-- LL-UNITDATA.ind -/
  | unitdataInd (tlli sapi : Nat) (data : Octets)
  /-- LL-XID.ind with the Layer-3 parameters (if any), N201-U and N201-I -/
  | xidInd (tlli sapi : Nat) (l3 : Option Octets) (n201u n201i : Nat)
  /-- LL-XID.cnf -/
  | xidCnf (tlli sapi : Nat) (l3 : Octets) (n201u n201i : Nat)
  /-- LL-ASSIGN.ind -/
  | assignInd (old new : Nat)
  deriving DecidableEq, Repr

/-- Result of an entity-level function: new entity, primitives emitted, return code. -/
structure LleRes where
  lle : Lle
  out : List Out := []
  rc : Res Unit := .ok ()
  deriving DecidableEq, Repr

/-- `lle_init`, /repo/src/llc/llc.c:158-168. -/
def Lle.init (sapi : Nat) : Lle := { sapi, params := defaultParams sapi }

/-- `gprs_llc_llme_alloc`, /repo/src/llc/llc.c:170-193 (without linking it into the list). -/
def Llme.alloc (tlli : Nat) : Llme := { tlli, lle := Lle.init }

/-- `gprs_llc_encode_is_cmd_as_cr`, /repo/include/osmocom/gprs/llc/llc_private.h:388-395: the C/R bit
sent. As in the code, the argument is ignored. -/
def encodeCr (loc : Location) (_isCmd : Bool) : Bool :=
  match loc with
  | .sgsn => true
  | .ms => false

/-- `gprs_llc_received_cr_is_cmd`, /repo/include/osmocom/gprs/llc/llc_private.h:378-386. -/
def receivedCrIsCmd (loc : Location) (cr : Bool) : Bool :=
  match loc with
  | .sgsn => !cr
  | .ms => cr

/-- Hand an encoded frame to the lower layer of `loc` or report the encoder's error. -/
def txFrame (loc : Location) (tlli sapi prio : Nat) (l : Lle) (p : Pdu) : LleRes :=
  match encode p with
  | .ok pdu => { lle := l, out := [.down (loc == .sgsn) tlli sapi prio pdu] }
  | .err e => { lle := l, rc := .err e }
  | .ub u => { lle := l, rc := .ub u }

/-- `gprs_llc_lle_tx_dm`, /repo/src/llc/llc.c:227-255: always a BSSGP primitive with the SAPI field
left at 0; errors are ignored by the caller. -/
def Lle.txDm (tlli : Nat) (l : Lle) : LleRes :=
  txFrame .sgsn tlli 0 0 l { sapi := l.sapi, fmt := .U, func := .DM, flags := { follFin := true } }

/-- `gprs_llc_lle_tx_xid`, /repo/src/llc/llc.c:257-301. -/
def Lle.txXid (loc : Location) (tlli : Nat) (l : Lle) (payload : Octets) (isCmd : Bool) : LleRes :=
  txFrame loc tlli l.sapi 1 l
    { sapi := l.sapi, fmt := .U, func := .XID
      flags := { follFin := true, cmdRsp := encodeCr loc isCmd }, data := payload }

/-- `gprs_llc_lle_tx_null`, /repo/src/llc/llc.c:304-343. -/
def Lle.txNull (loc : Location) (tlli : Nat) (l : Lle) : LleRes :=
  txFrame loc tlli l.sapi 4 l { sapi := l.sapi, fmt := .U, func := .NULL }

/-- `gprs_llc_lle_tx_ui`, /repo/src/llc/llc.c:349-417.  With GEA0 the `encryptable` argument has no
effect.  `oc_ui_send` is a `uint32_t`. -/
def Lle.txUi (loc : Location) (tlli prio : Nat) (l : Lle) (data : Octets) : LleRes :=
  if data.length > l.params.n201u then { lle := l, rc := .err .efbig }
  else
    match encode { sapi := l.sapi, fmt := .UI, func := .SABM
                   flags := { protMode := true, cmdRsp := encodeCr loc false }
                   seqTx := l.vuSend, data } with
    | .ok pdu =>
      let vu := (l.vuSend + 1) % 512
      { lle := { l with
          vuSend := vu
          ocSend := if (vu + 1) / 512 ≠ 0 then (l.ocSend + 512) % 2 ^ 32 else l.ocSend }
        out := [.down (loc == .sgsn) tlli l.sapi prio pdu] }
    | .err e => { lle := l, rc := .err e }
    | .ub u => { lle := l, rc := .ub u }

/-- The XID fields of `gprs_llc_lle_generate_xid`, /repo/src/llc/llc.c:459-490. `l3 = none` is a `NULL`
pointer, for which the array has three elements of which the last is then cut off; `val_len` is a
`uint8_t`. -/
def Lle.xidFields (l : Lle) (l3 : Option Octets) : List XidField :=
  let base : List XidField :=
    [{ type := 0, val := 0 }, { type := 5, val := l.params.n201u }, { type := 6, val := l.params.n201i }]
  match l3 with
  | none => base.take 2
  | some o =>
    if o.length > 0 then base ++ [{ type := 11, var := o.take (o.length % 256) }]
    else base

/-- `gprs_llc_lle_tx_xid_req`, /repo/src/llc/llc.c:508-532, with `gprs_llc_lle_generate_xid`. -/
def Lle.txXidReq (loc : Location) (tlli : Nat) (l : Lle) (l3 : Option Octets) : LleRes :=
  let fs := l.xidFields l3
  let l := { l with xid := fs }
  match xidEncode 1024 fs with
  | .ok w => if w.length > 0 then l.txXid loc tlli w true else { lle := l, rc := .err .einval }
  | .err _ => { lle := l, rc := .err .einval }
  | .ub u => { lle := l, rc := .ub u }

/-- Replace the first Layer-3 field by the answer of the upper layer, /repo/src/llc/llc.c:540-549
(`val_len` is a `uint8_t`). -/
def replaceL3 (l3 : Octets) : List XidField → List XidField
  | [] => []
  | f :: fs => if f.type = 11 then { f with var := l3.take (l3.length % 256) } :: fs
    else f :: replaceL3 l3 fs

/-- `gprs_llc_lle_tx_xid_resp`, /repo/src/llc/llc.c:535-559. -/
def Lle.txXidResp (loc : Location) (tlli : Nat) (l : Lle) (l3 : Octets) : LleRes :=
  let fs := replaceL3 l3 l.rxXid
  let l := { l with rxXid := [] }
  match xidEncode 1024 fs with
  | .ok w => l.txXid loc tlli w false
  | .err e => { lle := l, rc := .err e }
  | .ub u => { lle := l, rc := .ub u }

/-- One iteration of the loop of `gprs_llc_lle_process_xid_ind`, /repo/src/llc/llc.c:593-615: parameters
and whether N201 changed. -/
def xidIndField (s : Params × Bool) (f : XidField) : Params × Bool :=
  if f.type = 5 then
    if s.1.n201u ≠ f.val then ({ s.1 with n201u := f.val % 2 ^ 16 }, true) else s
  else if f.type = 6 then
    if s.1.n201i ≠ f.val then ({ s.1 with n201i := f.val % 2 ^ 16 }, true) else s
  else s

/-- The Layer-3 field handed up: the last one, /repo/src/llc/llc.c:610-612. -/
def lastL3 (fs : List XidField) : Option Octets :=
  (fs.filter (fun f => f.type == 11)).getLast?.map XidField.var

/-- `gprs_llc_lle_process_xid_ind`, /repo/src/llc/llc.c:562-636. -/
def Lle.processXidInd (loc : Location) (tlli : Nat) (l : Lle) (req : Octets) : LleRes :=
  match xidDecode 16 req with
  | .err e => { lle := l, rc := .err e }
  | .ub u => { lle := l, rc := .ub u }
  | .ok fs =>
    let r := fs.foldl xidIndField (l.params, false)
    let l := { l with params := r.1, rxXid := fs }
    let ind : List Out :=
      if r.2 || (lastL3 fs).isSome then [.xidInd tlli l.sapi (lastL3 fs) r.1.n201u r.1.n201i] else []
    if (lastL3 fs).isSome then { lle := l, out := ind }
    else
      let t := l.txXidResp loc tlli []
      { t with out := ind ++ t.out }

/-- `gprs_llc_lle_process_xid_conf`, /repo/src/llc/llc.c:639-696. -/
def Lle.processXidConf (tlli : Nat) (l : Lle) (rsp : Octets) : LleRes :=
  match xidDecode 16 rsp with
  | .err e => { lle := l, rc := .err e }
  | .ub u => { lle := l, rc := .ub u }
  | .ok fs =>
    let out : List Out :=
      if l.xid.any (fun f => f.type == 11) then
        (fs.filter (fun f => f.type == 11)).map
          (fun f => .xidCnf tlli l.sapi f.var l.params.n201u l.params.n201i)
      else []
    { lle := { l with xid := [] }, out }

/-- `gprs_llc_is_retransmit`, /repo/include/osmocom/gprs/llc/llc_private.h:372-376 (`nu`, `vur` below
2^16, so the masked difference is the one modulo 512). -/
def isRetransmit (nu vur : Nat) : Bool :=
  let delta := (vur + 512 - nu % 512) % 512
  0 < delta && delta < 32

/-- The UI case of `gprs_llc_lle_hdr_rx`, /repo/src/llc/llc.c:735-763; `none` is the return with
-EIO. -/
def Lle.acceptUi (l : Lle) (nu : Nat) : Lle × Bool :=
  let accept (l : Lle) : Lle × Bool :=
    ({ l with
        vuRecv := (nu + 1) % 512
        ocRecv := if (nu + 1) / 512 ≠ 0 then (l.ocRecv + 512) % 2 ^ 32 else l.ocRecv }, true)
  if isRetransmit nu l.vuRecv then
    if nu ≠ l.vuRecvLast then accept { l with vuRecvLast := nu, vuRecvDup := 0 }
    else
      let l := { l with vuRecvDup := (l.vuRecvDup + 1) % 2 ^ 16 }
      if l.vuRecvDup < 3 then (l, false) else accept l
  else accept l

/-- The LL-UNITDATA.ind part, /repo/src/llc/llc.c:876-908. -/
def deliverUi (tlli sapi : Nat) (data : Octets) : List Out × Res Unit :=
  if data.length = 0 then ([], .ok ())
  else if sapi = 1 ∨ sapi = 3 ∨ sapi = 5 ∨ sapi = 9 ∨ sapi = 11 then
    ([.unitdataInd tlli sapi data], .ok ())
  else ([], .err .einval)

/-- `gprs_llc_lle_rx_unitdata_ind` with `gprs_llc_lle_hdr_rx`, /repo/src/llc/llc.c:816-910 and 718-773.
When the FCS does not match and the frame is shorter than 6 octets, line 852-853 compares 6 octets of
it. -/
def Lle.rx (loc : Location) (tlli : Nat) (l : Lle) (d : Octets) (p : Decoded) : LleRes :=
  if p.flags.encMode then { lle := l }
  else if !fcsOk p d then
    if d.length ≥ 6 then { lle := l } else { lle := l, rc := .ub .outOfBounds }
  else
    match p.func with
    | .SABM | .DISC => { l.txDm tlli with rc := .ok () }
    | .XID =>
      let t := if receivedCrIsCmd loc p.flags.cmdRsp then l.processXidInd loc tlli (p.payload d)
        else l.processXidConf tlli (p.payload d)
      -- the return code of `gprs_llc_lle_rx_llc_xid` is ignored, an abort is not
      { t with rc := match t.rc with | .ub u => .ub u | _ => .ok () }
    | .UI =>
      match l.acceptUi p.seqTx with
      | (l, false) => { lle := l, rc := .err .eio }
      | (l, true) =>
        let t := deliverUi tlli p.sapi (p.payload d)
        { lle := l, out := t.1, rc := t.2 }
    | _ => { lle := l }

/-! ## Management entities and primitives -/

/-- `gprs_llc_find_llme_by_tlli`, /repo/src/llc/llc.c:207-216: position of the first match. -/
def Ctx.find (c : Ctx) (tlli : Nat) : Option Nat :=
  c.llmes.findIdx? (fun m => m.tlli == tlli || m.oldTlli == tlli)

/-- `gprs_llc_llme_alloc` as seen by the context: the new entity becomes the list head. -/
def Ctx.alloc (c : Ctx) (tlli : Nat) : Ctx := { c with llmes := Llme.alloc tlli :: c.llmes }

/-- Result of a primitive: new context, primitives emitted, return code. -/
structure CtxRes where
  ctx : Ctx
  out : List Out := []
  rc : Res Unit := .ok ()

/-- Replace entity `sapi` of an LLME. -/
def Llme.setLle (m : Llme) (sapi : Nat) (l : Lle) : Llme :=
  { m with lle := fun s => if s = sapi then l else m.lle s }

/-- Run an entity-level function on `llme->lle[sapi]` of the LLME at list position `i`; an index outside
the array of 16 is an out-of-bounds access. -/
def Ctx.onLle (c : Ctx) (i sapi : Nat) (f : Llme → Lle → LleRes) : CtxRes :=
  if sapi ≥ 16 then { ctx := c, rc := .ub .outOfBounds }
  else
    match c.llmes[i]? with
    | none => { ctx := c }
    | some m =>
      let r := f m (m.lle sapi)
      { ctx := { c with llmes := c.llmes.set i (m.setLle sapi r.lle) }, out := r.out, rc := r.rc }

/-- The TLLI types accepted by /repo/src/llc/llc_grr.c:101-110 and /repo/src/llc/llc_bssgp.c:97-106
(`gprs_tlli_type` of libosmocore: local 11.., foreign 10.., random 01111.., auxiliary 01110..). -/
def tlliTypeOk (tlli : Nat) : Bool := 0x70000000 ≤ tlli

/-- `gprs_llc_lle_for_rx_by_tlli_sapi`, /repo/src/llc/llc.c:420-456: context (possibly with a new LLME)
and position of the LLME. -/
def Ctx.lleForRx (c : Ctx) (tlli sapi : Nat) (f : Func) : Ctx × Option Nat :=
  match c.find tlli with
  | some i => (c, some i)
  | none =>
    if sapi = 1 ∧ (f = .XID ∨ f = .UI) then (c.alloc tlli, some 0) else (c, none)

/-- `llc_prim_handle_grr_unitdata_ind` /repo/src/llc/llc_grr.c:83-132 and its twin
`gprs_llc_prim_handle_bssgp_ul_unitdata_ind` /repo/src/llc/llc_bssgp.c:81-128. -/
def Ctx.rxPdu (c : Ctx) (tlli : Nat) (d : Octets) : CtxRes :=
  match decode d with
  | .err e => { ctx := c, rc := .err e }
  | .ub u => { ctx := c, rc := .ub u }
  | .ok p =>
    if !tlliTypeOk tlli then { ctx := c, rc := .err .einval }
    else
      match c.lleForRx tlli p.sapi p.func with
      | (c, none) => { ctx := c }
      | (c, some i) => c.onLle i p.sapi (fun m l => l.rx c.loc m.tlli d p)

/-- Common shape of the LL/LLGMM handlers that fail with -ENOKEY on an unknown TLLI. -/
def Ctx.onKnown (c : Ctx) (tlli sapi : Nat) (f : Llme → Lle → LleRes) : CtxRes :=
  match c.find tlli with
  | none => { ctx := c, rc := .err .enokey }
  | some i => c.onLle i sapi f

/-- `llc_prim_handle_ll_unitdata_req`, /repo/src/llc/llc_ll.c:300-327. -/
def Ctx.unitdataReq (c : Ctx) (tlli sapi prio : Nat) (data : Octets) : CtxRes :=
  let act (m : Llme) (l : Lle) : LleRes :=
    if m.suspended ∧ sapi ≠ 1 then { lle := l } else l.txUi c.loc m.tlli prio data
  match c.find tlli with
  | some i => c.onLle i sapi act
  | none =>
    if sapi ≥ 16 then { ctx := c.alloc tlli, rc := .ub .assertFail }
    else (c.alloc tlli).onLle 0 sapi act

/-- The reset fields of LLGMM-RESET.req, /repo/src/llc/llc_llgmm.c:50-72, 251-273; `iov` is the random
number drawn. -/
def Lle.reset (loc : Location) (tlli iov : Nat) (l : Lle) : LleRes :=
  let fs : List XidField := [{ type := 12 }, { type := 1, val := iov }]
  let l := { l with xid := fs }
  match xidEncode 1024 fs with
  | .ok w => { l with vuRecv := 0, vuSend := 0, ocSend := 0, ocRecv := 0 }.txXid loc tlli w true
  | .err _ => { lle := l, rc := .err .einval }
  | .ub u => { lle := l, rc := .ub u }

/-- The effect of LLGMM-ASSIGN.req on the LLME found, /repo/src/llc/llc_llgmm.c:171-221; `none`: it is
freed. -/
def Llme.assign (m : Llme) (old new : Nat) : Option Llme :=
  if old = tlliUnassigned then
    if m.oldTlli ≠ tlliUnassigned then some { m with oldTlli := tlliUnassigned, tlli := new }
    else some { m with
      tlli := new
      lle := fun s => if m.tlli ≠ new then { m.lle s with vuSend := 0, vuRecv := 0 } else m.lle s }
  else if new ≠ tlliUnassigned then some { m with oldTlli := old, tlli := new }
  else none

/-- `llc_prim_handle_llgmm_assign_req`, /repo/src/llc/llc_llgmm.c:145-231. -/
def Ctx.assignReq (c : Ctx) (old new : Nat) : CtxRes :=
  if old = tlliUnassigned ∧ new = tlliUnassigned then { ctx := c, rc := .err .einval }
  else
    match c.find (if old ≠ tlliUnassigned then old else new) with
    | none => { ctx := c, rc := .err .enokey }
    | some i =>
      match c.llmes[i]? with
      | none => { ctx := c }
      | some m =>
        match m.assign old new with
        | none => { ctx := { c with llmes := c.llmes.eraseIdx i } }
        | some m' =>
          { ctx := { c with llmes := c.llmes.set i m' }
            out := if old ≠ tlliUnassigned ∧ new ≠ tlliUnassigned ∧ old ≠ new then [.assignInd old new]
              else [] }

/-- LLGMM-SUSPEND.req / LLGMM-RESUME.req, /repo/src/llc/llc_llgmm.c:322-361. -/
def Ctx.setSuspended (c : Ctx) (tlli : Nat) (b : Bool) : CtxRes :=
  match c.find tlli with
  | none => { ctx := c, rc := .err .enokey }
  | some i =>
    match c.llmes[i]? with
    | none => { ctx := c }
    | some m => { ctx := { c with llmes := c.llmes.set i { m with suspended := b } } }

/-- What the neighbours of LLC can do to it. -/
inductive Op where
  | unitdataReq (tlli sapi prio : Nat) (data : Octets)
  | xidReq (tlli sapi : Nat) (l3 : Option Octets)
  | xidResp (tlli sapi : Nat) (l3 : Octets)
  | establishReq (tlli sapi : Nat)
  | assignReq (old new : Nat)
  | resetReq (tlli iov : Nat)
  /-- `cellNotification`: cause is Cell Notification -/
  | triggerReq (tlli : Nat) (cellNotification : Bool)
  | suspendReq (tlli : Nat)
  | resumeReq (tlli : Nat)
  | rxPdu (tlli : Nat) (d : Octets)
  deriving DecidableEq, Repr

/-- `osmo_gprs_llc_prim_upper_down` and `osmo_gprs_llc_prim_lower_up`, /repo/src/llc/llc_prim.c:143-218,
with the handlers of /repo/src/llc/llc_ll.c:230-298 and /repo/src/llc/llc_llgmm.c:233-320.
LLGMM-RESET also stores the random number in the LLME (line 251), which is read nowhere without
ciphering. -/
def Ctx.step (c : Ctx) : Op → CtxRes
  | .unitdataReq tlli sapi prio data => c.unitdataReq tlli sapi prio data
  | .xidReq tlli sapi l3 => c.onKnown tlli sapi (fun m l => l.txXidReq c.loc m.tlli l3)
  | .xidResp tlli sapi l3 => c.onKnown tlli sapi (fun m l => l.txXidResp c.loc m.tlli l3)
  | .establishReq tlli sapi => c.onKnown tlli sapi (fun _ l => { lle := l, rc := .err .enotsup })
  | .assignReq old new => c.assignReq old new
  | .resetReq tlli iov => c.onKnown tlli 1 (fun m l => l.reset c.loc m.tlli iov)
  | .triggerReq tlli cell =>
    c.onKnown tlli 1 (fun m l => if cell then l.txNull c.loc m.tlli else l.txUi c.loc m.tlli 1 [])
  | .suspendReq tlli => c.setSuspended tlli true
  | .resumeReq tlli => c.setSuspended tlli false
  | .rxPdu tlli d => c.rxPdu tlli d

/-- Run a history of operations from context `c`: final context, everything emitted, in order. -/
def Ctx.run (c : Ctx) : List Op → Ctx × List Out
  | [] => (c, [])
  | op :: ops =>
    let r := c.step op
    let t := r.ctx.run ops
    (t.1, r.out ++ t.2)

/-- State after `osmo_gprs_llc_init`, /repo/src/llc/llc.c:139-156. -/
def Ctx.init (loc : Location) : Ctx := { loc }

end Verif.Llc
