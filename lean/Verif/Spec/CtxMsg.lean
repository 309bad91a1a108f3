import Verif.Rlc.Ctx

/-!
# Specification: whom an event of the RLC/MAC context is for, and what it may change
-/
namespace Verif.Spec
open Verif Verif.Rlc

/-- What the code goes by: the TFI stored for the uplink or downlink TBF of the entity, its TLLI or its old TLLI. -/
def Names (id : MsId) (g : Gre) : Prop :=
  match id with
  | .ulTfi tfi => ∃ i t, g.ul = some (i, t) ∧ t.cur.tfi = tfi
  | .dlTfi tfi => ∃ d, g.dl = some d ∧ d.alloc.tfi = tfi
  | .tlli tlli => g.names.tlli = tlli ∨ g.names.oldTlli = tlli
  | .other => False

/-- The entity was given this identity: an uplink TFI comes with at least one timeslot, and `noTlli` (all ones) stands
for no TLLI. -/
def Given (id : MsId) (g : Gre) : Prop :=
  match id with
  | .ulTfi tfi => ∃ i t, g.ul = some (i, t) ∧ t.cur.tfi = tfi ∧ ∃ ts u, t.cur.usf ts = some u
  | .tlli tlli => tlli ≠ noTlli ∧ (g.names.tlli = tlli ∨ g.names.oldTlli = tlli)
  | id => Names id g

/-- The identity in a message from the network. -/
def addressee : CtxEv → Option MsId
  | .pktUlAss id .. => some id
  | .ulAck tfi .. => some (.ulTfi tfi)
  | .pktDlAss id .. => some id
  | .dlData tfi .. => some (.dlTfi tfi)
  | .immAssDl tlli .. => some (.tlli tlli)
  | _ => none

/-- The entity an event is for. -/
def Concerns : CtxEv → Gre → Prop
  | .cnf fn ts, g => ∃ i t, g.ul = some (i, t) ∧ t.st = .releasing ∧ t.ackFn = fn ∧ t.ackTn = ts
  | .pktUlAss id .., g => Names id g
  | .ulAck tfi .., g => Names (.ulTfi tfi) g
  | .pktDlAss id .., g => Names id g
  | .dlData tfi .., g => Names (.dlTfi tfi) g
  | .immAssUl .., g => ∃ i t, g.ul = some (i, t) ∧ t.ass = .waitImmAss
  | .immAssDl tlli .., g => Names (.tlli tlli) g
  | .unitdata _ tlli, g => Names (.tlli tlli) g
  | .assign old .., g => old ≠ noTlli ∧ Names (.tlli old) g
  | .ulTimer _ n _, g => g.n = n
  | .t3190 n, g => g.n = n
  | .t3192 n, g => g.n = n
  | .idleTimer n, g => g.n = n
  | .rts .., _ => False
  | .ccchReady _, _ => False

/-- An event for one entity: a message, a primitive or a timer. -/
def ForOne : CtxEv → Prop
  | .rts .. => False
  | .ccchReady _ => False
  | _ => True

/-- The reservation is one of this entity or of its TBFs. -/
def ReservedFor (x : PollNode) (g : Gre) : Prop :=
  match x.owner with
  | .tbf i => (∃ t, g.ul = some (i, t)) ∨ ∃ d, g.dl = some d ∧ d.id = i
  | .gre n => g.n = n

/-- What is asked of the lower layer on behalf of entity `n` or of no entity. -/
def OutOf (n : Nat) : CtxOut → Prop
  | .block _ _ m _ => m = n
  | .rach m => m = n
  | .cfgDl m _ => m = n
  | .pdchRel => True

/-- All entities but the one with number `n` stay as they are, with their reservations, and nothing is asked of the
lower layer for them. -/
structure OnlyTouches (n : Nat) (s s' : Ctx) (outs : List CtxOut) : Prop where
  others : ∀ g, g.n ≠ n → (g ∈ s.es ↔ g ∈ s'.es)
  polls : ∀ g ∈ s.es, g.n ≠ n → ∀ ts x, x ∈ s.polls.getD ts [] → ReservedFor x g → x ∈ s'.polls.getD ts []
  outs : ∀ o ∈ outs, OutOf n o

/-- The entity has a TBF. -/
def HasTbf (g : Gre) : Prop := g.ul ≠ none ∨ g.dl ≠ none

/-- The downlink resources of an IMMEDIATE ASSIGNMENT: one timeslot. -/
def immWanted (tfi ts : Nat) : DlAlloc := ⟨tfi, 1, (List.range 8).map (· == ts)⟩

/-- The downlink resources of a PACKET DOWNLINK ASSIGNMENT: TFI and one flag for each timeslot. -/
def pktWanted (tfi : Nat) (mask : List Bool) : DlAlloc := ⟨tfi, mask.count true, mask⟩

/-- Of all entities the message names this one only. -/
def OnlyNamed (s : Ctx) (id : MsId) (g : Gre) : Prop := g ∈ s.es ∧ Names id g ∧ ∀ g' ∈ s.es, Names id g' → g' = g

/-- The TFI of a downlink assignment; one without a TFI leaves the one that the downlink TBF has. -/
def TfiOf (g : Gre) (tfi : Option Nat) (k : Nat) : Prop := tfi = some k ∨ tfi = none ∧ ∃ d, g.dl = some d ∧ d.alloc.tfi = k

/-- The event is a downlink assignment of these resources for entity `g` and no other, with this starting time, received
at frame `fn`. -/
def AssignsDl (s : Ctx) (g : Gre) : CtxEv → DlAlloc → Option StartTime → Nat → Prop
  | .pktDlAss id tfi start mask _ _ fn _, a, st, f =>
    OnlyNamed s id g ∧ mask.length = 8 ∧ (∃ k, TfiOf g tfi k ∧ a = pktWanted k mask) ∧ st = start ∧ f = fn
  | .immAssDl tlli tfi start fn ts, a, st, f =>
    OnlyNamed s (.tlli tlli) g ∧ ts < 8 ∧ a = immWanted tfi ts ∧ st = start ∧ f = fn
  | _, _, _, _ => False

/-- An assignment on the PACCH. -/
def OnPacch : CtxEv → Prop
  | .pktDlAss .. => True
  | _ => False

/-- An assignment that carries a TFI. -/
def CarriesTfi : CtxEv → Prop
  | .pktDlAss _ tfi .. => tfi ≠ none
  | _ => True

/-- The frame in which a TBF begins: none is given, or the one the message says (C64). -/
def StartsAt (env : UlEnv) (fn : Nat) (start : Option StartTime) (sf : Option Nat) : Prop :=
  match start with
  | none => sf = none
  | some st => ∃ f, st.toFn env fn = .ok f ∧ sf = some f

/-- The uplink block begins in frame `f`. -/
def AtFrame (f : Nat) : CtxEv → Prop
  | .rts _ fn _ _ => fn = f
  | _ => False

/-- The event may change the downlink assignment of entity `n` (or free the entity): another assignment that names it, or
giving it up. -/
def Reassigns (s : Ctx) (n : Nat) : CtxEv → Prop
  | .pktDlAss id .. => ∃ g ∈ s.es, g.n = n ∧ Names id g
  | .immAssDl tlli .. => ∃ g ∈ s.es, g.n = n ∧ Names (.tlli tlli) g
  | .assign old new _ _ => old ≠ noTlli ∧ new = noTlli ∧ ∃ g ∈ s.es, g.n = n ∧ Names (.tlli old) g
  | _ => False

/-- The event gives up the entity: GMMRR-ASSIGN.req without a new TLLI. -/
def GivesUp (s : Ctx) (n : Nat) : CtxEv → Prop
  | .assign old new _ _ => old ≠ noTlli ∧ new = noTlli ∧ ∃ g ∈ s.es, g.n = n ∧ Names (.tlli old) g
  | _ => False

/-- In this history entity `n` is not given up, and its idle timer does not run out. -/
def StaysIdle (env : UlEnv) (n : Nat) : Ctx → List CtxEv → Prop
  | _, [] => True
  | s, e :: es => ¬ GivesUp s n e ∧ e ≠ .idleTimer n ∧ ∀ s' o, s.step env e = .ok (s', o) → StaysIdle env n s' es

/-- In this history no event reassigns entity `n`, and no event in `E` occurs. -/
def Quiet (env : UlEnv) (n : Nat) (E : CtxEv → Prop) : Ctx → List CtxEv → Prop
  | _, [] => True
  | s, e :: es => ¬ Reassigns s n e ∧ ¬ E e ∧ ∀ s' o, s.step env e = .ok (s', o) → Quiet env n E s' es

end Verif.Spec
