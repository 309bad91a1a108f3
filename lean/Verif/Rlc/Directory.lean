import Verif.Basic
/-!
# RLC/MAC: the entities of the mobile stations

src/rlcmac/rlcmac.c and src/rlcmac/rlcmac_prim.c: which entity a TLLI belongs to.  What an entity does
(queue, TBFs) is modelled elsewhere; here entities are told apart by a serial number, which the code does
not have.  Primitives are assumed to be well formed; the memory of primitives is not modelled.
-/
namespace Verif.Rlc
open Verif

/-- `GPRS_RLCMAC_TLLI_UNASSIGNED`, include/osmocom/gprs/rlcmac/rlcmac_private.h:18. -/
def noTlli : Nat := 0xffffffff

/-- `struct gprs_rlcmac_entity`, include/osmocom/gprs/rlcmac/gre.h:21-28: its names. -/
structure GreNames where
  serial  : Nat
  tlli    : Nat
  oldTlli : Nat
  ptmsi   : Nat
  imsi    : List Nat
  deriving DecidableEq, Repr

/-- `g_rlcmac_ctx->gre_list`, and the number of entities made so far. -/
structure GreDir where
  made : Nat
  es   : List GreNames
  deriving DecidableEq, Repr

/-- Without entities. -/
def greDir0 : GreDir := ⟨0, []⟩

/-- `gprs_rlcmac_find_entity_by_tlli`, rlcmac.c:137-145. -/
def findTlli (d : GreDir) (tlli : Nat) : Option GreNames :=
  d.es.find? fun e => e.tlli == tlli || e.oldTlli == tlli

/-- `gprs_rlcmac_find_entity_by_ptmsi`, rlcmac.c:147-155. -/
def findPtmsi (d : GreDir) (ptmsi : Nat) : Option GreNames := d.es.find? fun e => e.ptmsi == ptmsi

/-- `gprs_rlcmac_find_entity_by_imsi`, rlcmac.c:157-165. -/
def findImsi (d : GreDir) (imsi : List Nat) : Option GreNames := d.es.find? fun e => e.imsi == imsi

/-- `gprs_rlcmac_entity_alloc`, gre.c:45-77; allocation does not fail. -/
def greAlloc (d : GreDir) (tlli : Nat) : GreDir :=
  ⟨d.made + 1, d.es ++ [⟨d.made, tlli, noTlli, 0xffffffff, []⟩]⟩

/-- Change the entity with the given serial number. -/
def greSet (d : GreDir) (serial : Nat) (f : GreNames → GreNames) : GreDir :=
  { d with es := d.es.map fun e => if e.serial = serial then f e else e }

/-- `gprs_rlcmac_entity_free`, gre.c:79-95. -/
def greFree (d : GreDir) (serial : Nat) : GreDir :=
  { d with es := d.es.filter fun e => e.serial ≠ serial }

/-- `rlcmac_prim_handle_gmmrr_assign_req`, rlcmac_prim.c:458-514. -/
def greAssign (d : GreDir) (old new ptmsi : Nat) (imsi : List Nat) : GreDir × Option Errno :=
  if old = noTlli then
    if new = noTlli then (d, some .einval)
    else if (findTlli d new).isSome then (d, some .einval)
    else (greSet (greAlloc d new) d.made fun e => { e with ptmsi := ptmsi, imsi := imsi }, none)
  else if new = noTlli then
    match findTlli d old with
    | none => (d, some .enoent)
    | some e => (greFree d e.serial, none)
  else
    match findTlli d old with
    | none => (d, some .enoent)
    | some e => (greSet d e.serial fun e => { e with tlli := new, oldTlli := old, ptmsi := ptmsi, imsi := imsi }, none)

/-- `rlcmac_prim_handle_grr_unitdata_req`, rlcmac_prim.c:390-424: the entity the LL-PDU is queued for, made
on the fly if there is none.  The queue is modelled in Rlc/LlcQueue. -/
def greUnitdata (d : GreDir) (tlli : Nat) : GreDir × Nat :=
  match findTlli d tlli with
  | some e => (d, e.serial)
  | none => (greAlloc d tlli, d.made)

/-- What the layers above do. -/
inductive GreOp where
  | assign (old new ptmsi : Nat) (imsi : List Nat)
  | unitdata (tlli : Nat)
  deriving DecidableEq, Repr

/-- One operation. -/
def greStep (d : GreDir) : GreOp → GreDir
  | .assign old new ptmsi imsi => (greAssign d old new ptmsi imsi).1
  | .unitdata tlli => (greUnitdata d tlli).1

/-- A history. -/
def greRun (d : GreDir) (l : List GreOp) : GreDir := l.foldl greStep d

end Verif.Rlc
