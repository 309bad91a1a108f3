import Verif.Sndcp.Xid
/-!
# SNDCP compression entities and their negotiation

Models src/sndcp/sndcp_comp.c (lists of compression entities) and the XID procedures of
src/sndcp/sndcp.c: `gprs_sndcp_sne_gen_sndcp_xid`, SN-XID.req, SN-XID.rsp, LL-XID.ind and LL-XID.cnf.
-/
namespace Verif.Sndcp

/-- `struct gprs_sndcp_comp` (comp.h:29-47).  `works` says whether `state` is a usable compressor:
`slhc_init` with between 1 and 255 slots (slhc.c:110-167; it returns NULL for more than 255 and a
compressor without any slot for 0), `v42bis_init` with P1 and P2 in range (v42bis.c:709-747). -/
structure CompEnt where
  entity : Nat
  nsapis : List Nat
  comp : List Nat
  algo : Nat
  cls : CClass
  works : Bool
  deriving DecidableEq, Repr

/-- The two lists of `struct gprs_sndcp_mgmt_entity` (sndcp_private.h), head first. -/
structure Comps where
  proto : List CompEnt := []
  data : List CompEnt := []
  deriving DecidableEq, Repr

/-- The configuration flags `pcomp_rfc1144_passive_accept` and `dcomp_v42bis_passive_accept`. -/
structure CompCfg where
  rfc1144 : Bool
  v42bis : Bool
  deriving DecidableEq, Repr

/-- Whether `slhc_init` / `v42bis_init` give a usable compressor for these parameters
(sndcp_pcomp.c:53-56, sndcp_dcomp.c:79-86). -/
def initWorks (q : Params) : Bool :=
  match q.kind, q.vals with
  | .rfc1144, [s0] => decide (1 ≤ s0 + 1) && decide (s0 + 1 ≤ 255)
  | .v42bis, [_, p1, p2] =>
    decide (512 ≤ p1) && decide (p1 ≤ 65535) && decide (6 ≤ p2) && decide (p2 ≤ 250)
  | _, _ => false

/-- `gprs_sndcp_comp_create` (sndcp_comp.c:36-126) with `gprs_sndcp_pcomp_init` /
`gprs_sndcp_dcomp_init` (sndcp_pcomp.c:40-65, sndcp_dcomp.c:67-96): the latter only know algorithm 0
and abort for any other. -/
def compCreate (f : CompField) : Res CompEnt :=
  match f.params with
  | none => .ub .assertFail
  | some q =>
    if q.nsapis = [] then .ub .assertFail
    else if f.algo ≠ 0 ∨ (q.kind ≠ .rfc1144 ∧ q.kind ≠ .v42bis) then .ub .assertFail
    else .ok { entity := f.entity, nsapis := q.nsapis, comp := f.comp, algo := f.algo,
               cls := q.kind.cls, works := initWorks q }

/-- `gprs_sndcp_comp_delete` (sndcp_comp.c:175-205) with the assertion of `gprs_sndcp_pcomp_term`
(sndcp_pcomp.c:68-90). -/
def compDelete (l : List CompEnt) (n : Nat) : Res (List CompEnt) :=
  match l.find? (fun e => e.entity = n) with
  | none => .ok l
  | some e =>
    if e.cls = .proto ∧ e.algo ≠ 0 then .ub .assertFail
    else .ok (l.eraseP (fun e => e.entity = n))

/-- `gprs_sndcp_comp_add` (sndcp_comp.c:209-231). -/
def compAdd (l : List CompEnt) (f : CompField) : Res (List CompEnt) := do
  let l ← compDelete l f.entity
  let e ← compCreate f
  .ok (e :: l)

/-- The field as it is sent back when it is refused: no applicable NSAPIs. -/
def CompField.refused (f : CompField) : CompField :=
  { f with params := f.params.map (fun q => { q with nsapis := [] }) }

/-- `params->nsapi_len > 0` for the parameters of a kind; another kind's pointer is NULL
(sndcp.c:946, 990). -/
def nsapisOf (f : CompField) (k : Kind) : Res (List Nat) :=
  match f.params with
  | some q => if q.kind = k then .ok q.nsapis else .ub .outOfBounds
  | none => .ub .outOfBounds

/-- One accepted or refused field (the RFC_1144 and V42BIS branches, sndcp.c:944-956, 988-1000). -/
def acceptOrRefuse (accept : Bool) (k : Kind) (l : List CompEnt) (f : CompField) :
    Res (List CompEnt × CompField) := do
  let ns ← nsapisOf f k
  if accept = true ∧ ns ≠ [] then
    let l ← compAdd l f
    .ok (l, f)
  else
    let l ← compDelete l f.entity
    .ok (l, f.refused)

/-- A field that is always refused (RFC_2507, ROHC, V44; sndcp.c:957-970, 1001-1007). -/
def refuse (k : Kind) (l : List CompEnt) (f : CompField) : Res (List CompEnt × CompField) := do
  let _ ← nsapisOf f k
  let l ← compDelete l f.entity
  .ok (l, f.refused)

/-- `gprs_sndcp_snme_handle_pcomp_entities` (sndcp.c:929-971). -/
def handlePcomp (cfg : CompCfg) (l : List CompEnt) (f : CompField) :
    Res (List CompEnt × CompField) :=
  let f := { f with p := false }
  match f.algo with
  | 0 => acceptOrRefuse cfg.rfc1144 .rfc1144 l f
  | 1 => refuse .rfc2507 l f
  | 2 => refuse .rohc l f
  | _ => .ok (l, f)

/-- `gprs_sndcp_snme_handle_dcomp_entities` (sndcp.c:974-1007). -/
def handleDcomp (cfg : CompCfg) (l : List CompEnt) (f : CompField) :
    Res (List CompEnt × CompField) :=
  let f := { f with p := false }
  match f.algo with
  | 0 => acceptOrRefuse cfg.v42bis .v42bis l f
  | 1 => refuse .v44 l f
  | _ => .ok (l, f)

/-- The body of the loops over the fields in `gprs_sndcp_snme_handle_llc_ll_xid_ind` (sndcp.c:1066-1082)
and `..._cnf` (1150-1164): a field without parameters has no class and deletes the entity of that
number in both lists. -/
def handleField (cfg : CompCfg) (s : Comps) (f : CompField) : Res (Comps × CompField) :=
  match f.cls with
  | some .proto => do
    let (l, f) ← handlePcomp cfg s.proto f
    .ok ({ s with proto := l }, f)
  | some .data => do
    let (l, f) ← handleDcomp cfg s.data f
    .ok ({ s with data := l }, f)
  | none => do
    let p ← compDelete s.proto f.entity
    let d ← compDelete s.data f.entity
    .ok ({ proto := p, data := d }, f)

/-- The loop itself. -/
def handleFields (cfg : CompCfg) : Comps → List CompField → Res (Comps × List CompField)
  | s, [] => .ok (s, [])
  | s, f :: fs =>
    match handleField cfg s f with
    | .ok (s, g) =>
      (match handleFields cfg s fs with
      | .ok (s, gs) => .ok (s, g :: gs)
      | .err e => .err e
      | .ub x => .ub x)
    | .err e => .err e
    | .ub x => .ub x

/-- LL-XID.ind with an XID block (`gprs_sndcp_snme_handle_llc_ll_xid_ind`, sndcp.c:1010-1090, for a SAPI
with an SNDCP entity): the lists afterwards and the fields kept for the answer. -/
def xidInd (cfg : CompCfg) (s : Comps) (b : Octets) : Res (Comps × List CompField) := do
  let (_, fs) ← parseXid true b none
  handleFields cfg s fs

/-- SN-XID.rsp (`gprs_sndcp_sne_handle_sn_xid_rsp`, sndcp.c:821-853): the XID block of the LL-XID.rsp.
The buffer has 256 octets of room; `msgb_put` aborts if the length does not fit. -/
def xidRsp (fs : List CompField) : Res Octets := do
  let (o, n) ← compileXid 256 fs 0
  if n > 256 then .ub .assertFail else .ok o

/-- LL-XID.cnf (`gprs_sndcp_snme_handle_llc_ll_xid_cnf`, sndcp.c:1095-1187) for an entity whose request was
`req`. -/
def xidCnf (cfg : CompCfg) (s : Comps) (req b : Octets) : Res Comps :=
  if req = [] then .ok s
  else do
    let (_, rs) ← parseXid false req none
    let (_, fs) ← parseXid false b (some rs)
    let (s, _) ← handleFields cfg s fs
    .ok s

/-- The parameters of SN-XID.req (sndcp_prim.h:84-100): which compressions to propose, with what. -/
structure XidReq where
  rfc1144 : Option Int
  v42bis : Option (Int × Int × Int)
  deriving DecidableEq, Repr

/-- The fields `gprs_sndcp_sne_gen_sndcp_xid` puts together (sndcp.c:732-779), head of the list
first. -/
def reqFields (nsapi : Nat) (r : XidReq) : List CompField :=
  let h : List CompField := match r.rfc1144 with
    | some s0 => [{ p := true, entity := 0, algo := 0, comp := [1, 2],
                    params := some { kind := .rfc1144, nsapis := [nsapi], vals := [s0] } }]
    | none => []
  match r.v42bis with
  | some (p0, p1, p2) =>
    { p := true, entity := h.length, algo := 0, comp := [1],
      params := some { kind := .v42bis, nsapis := [nsapi], vals := [p0, p1, p2] } } :: h
  | none => h

/-- SN-XID.req (`gprs_sndcp_sne_handle_sn_xid_req`, sndcp.c:790-816): the lists are emptied, the result is
the XID block to send, empty if there is nothing to propose.  `gprs_sndcp_comp_free` aborts for an
entity of unknown algorithm (sndcp_pcomp.c:68-90, sndcp_dcomp.c:99-121). -/
def xidReq (s : Comps) (nsapi : Nat) (r : XidReq) : Res (Comps × Octets) :=
  if (s.proto ++ s.data).any (fun e => e.algo ≠ 0) then .ub .assertFail
  else if reqFields nsapi r = [] then .ok ({}, [])
  else do
    let (o, _) ← compileXid 1024 (reqFields nsapi r) 0
    .ok ({}, o)

/-! ## Lookups -/

/-- `gprs_sndcp_comp_by_comp` (sndcp_comp.c:234-253). -/
def byComp (l : List CompEnt) (v : Nat) : Option CompEnt := l.find? (fun e => e.comp.contains v)

/-- `gprs_sndcp_comp_by_nsapi` (sndcp_comp.c:255-271). -/
def byNsapi (l : List CompEnt) (n : Nat) : Option CompEnt := l.find? (fun e => e.nsapis.contains n)

/-- `gprs_sndcp_comp_get_idx` (sndcp_comp.c:274-300). -/
def getIdx (e : CompEnt) (v : Nat) : Nat :=
  if v = 0 then 0
  else match e.comp.findIdx? (· = v) with
    | some i => i + 1
    | none => 0

/-- `gprs_sndcp_comp_get_comp` (sndcp_comp.c:303-321). -/
def getComp (e : CompEnt) (i : Nat) : Nat :=
  if i = 0 then 0 else if i > e.comp.length then 0 else e.comp.getD (i - 1) 0

end Verif.Sndcp
