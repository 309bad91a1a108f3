import Verif.Basic
/-!
# GMM: specification

What TS 24.008 and TS 24.007 say, in terms that do not refer to the model.
-/
namespace Verif.Spec.Gmm
open Verif

/-- TS 24.008 table 10.5.172: the meaning of a GPRS timer octet: a unit in bits 8 to 6 and a value in
bits 5 to 1.  `none`: the timer is deactivated. -/
def gprsTimer (unit value : Nat) : Option Nat :=
  match unit with
  | 0 => some (2 * value)
  | 1 => some (60 * value)
  | 2 => some (360 * value)
  | 7 => none
  | _ => some (60 * value)

/-- The durations a GPRS timer octet can express. -/
def Expressible (s : Nat) : Prop :=
  ∃ v < 32, s = 2 * v ∨ s = 60 * v ∨ s = 360 * v

/-! ## Requests and confirmations -/

/-- What the user of a service sees. -/
inductive Mark where
  /-- a request was taken -/
  | asked
  /-- the outcome was confirmed -/
  | told (accepted : Bool)
  deriving DecidableEq, Repr

/-- Whether an answer is owed at the end; `none`: there was a confirmation that nobody waited for.
Repeating a request that is not answered yet does not make two confirmations due. -/
def answered : Bool → List Mark → Option Bool
  | w, [] => some w
  | _, .asked :: l => answered true l
  | true, .told _ :: l => answered false l
  | false, .told _ :: _ => none

theorem answered_append (w : Bool) (a b : List Mark) :
    answered w (a ++ b) = (answered w a).bind fun w' => answered w' b := by
  induction a generalizing w with
  | nil => rfl
  | cons m a ih =>
    cases m with
    | asked => exact ih true
    | told x =>
      cases w with
      | true => exact ih false
      | false => rfl

/-! ## The data link -/

/-- What happens to the data link. -/
inductive LinkEv where
  | suspend | resume
  deriving DecidableEq, Repr

/-- Whether the data link is in operation at the end. -/
def linkUp : Bool → List LinkEv → Bool
  | u, [] => u
  | _, .suspend :: l => linkUp false l
  | _, .resume :: l => linkUp true l

theorem linkUp_append (u : Bool) (a b : List LinkEv) : linkUp u (a ++ b) = linkUp (linkUp u a) b := by
  induction a generalizing u with
  | nil => rfl
  | cons m a ih =>
    cases m with
    | suspend => exact ih false
    | resume => exact ih true

/-- TS 24.008 4.7.3.1.5 c) and 4.7.5.1.5 c): the procedure is abandoned on the fifth expiry of its
timer. -/
def maxExpiries : Nat := 5

end Verif.Spec.Gmm
