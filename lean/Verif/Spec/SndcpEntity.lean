import Verif.Basic
/-!
# Specification side of SNDCP activation

Which (TLLI, NSAPI) are active, as a set, independent of the model.
-/
namespace Verif.Spec.SndcpEntity

/-- What the session management tells SNDCP: activation, deactivation, change of TLLI. -/
inductive Event where
  | activate (tlli nsapi : Nat)
  | deactivate (tlli nsapi : Nat)
  | change (old new : Nat)
  | other
  deriving DecidableEq, Repr

/-- The active pairs after one event: a change of TLLI moves everything of the old one to the new
one; a TLLI nothing is active for is not changed. -/
def after (active : Nat → Nat → Prop) : Event → Nat → Nat → Prop
  | .activate t n => fun t' n' => active t' n' ∨ (t' = t ∧ n' = n)
  | .deactivate t n => fun t' n' => active t' n' ∧ ¬ (t' = t ∧ n' = n)
  | .change o w => fun t' n' =>
    (o = w ∨ (∀ n, ¬ active o n)) ∧ active t' n' ∨
    ¬ (o = w ∨ (∀ n, ¬ active o n)) ∧ (t' = w ∧ active o n' ∨ t' ≠ w ∧ t' ≠ o ∧ active t' n')
  | .other => active

/-- The active pairs after a history that began with none. -/
def activeAfter : List Event → Nat → Nat → Prop
  | es => es.foldl after (fun _ _ => False)

/-- The TLLIs are used as they should be: a new TLLI is not one that is in use. -/
def Fresh (active : Nat → Nat → Prop) : List Event → Prop
  | [] => True
  | e :: es =>
    (match e with
      | .change o w => o = w ∨ ∀ n, ¬ active w n
      | _ => True) ∧ Fresh (after active e) es

end Verif.Spec.SndcpEntity
