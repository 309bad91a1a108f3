/-!
# Common vocabulary of the model

Octet buffers, C error codes and the outcome type that makes aborts and undefined behaviour
visible.  (Modelling vocabulary; corresponds to no single place in /repo.)
-/
namespace Verif

/-- A byte buffer (`uint8_t *` with its length, or the contents of an `msgb`). -/
abbrev Octets := List UInt8

/-- The `errno` values the modelled functions return (negated) in /repo. -/
inductive Errno where
  | eperm | enoent | eio | enomem | eexist | enodev | einval | efbig | enospc | enotsup | enokey
  | enomsg | ebadmsg | eproto | eagain | ebusy | emsgsize | enobufs
  /-- a plain `return -1` -/
  | minus1
  deriving DecidableEq, Repr

/-- Ways a C execution can go wrong for good: an `OSMO_ASSERT`/`msgb_put` abort or undefined
behaviour. -/
inductive Fault where
  | assertFail | outOfBounds | useAfterFree | doubleFree
  deriving DecidableEq, Repr

/-- Outcome of a C function: success with a value, an error return, or abort/undefined behaviour. -/
inductive Res (α : Type) where
  | ok (a : α)
  | err (e : Errno)
  | ub (f : Fault)
  deriving DecidableEq, Repr

namespace Res

/-- Sequencing: errors and faults stop the computation. -/
def bind {α β : Type} (r : Res α) (f : α → Res β) : Res β :=
  match r with
  | ok a => f a
  | err e => err e
  | ub u => ub u

instance : Monad Res where
  pure := ok
  bind := bind

/-- The outcome is neither an abort nor undefined behaviour. -/
def Safe {α : Type} (r : Res α) : Prop := ∀ f, r ≠ ub f

@[simp] theorem pure_eq {α : Type} (a : α) : (pure a : Res α) = ok a := rfl
@[simp] theorem bind_ok {α β : Type} (a : α) (f : α → Res β) : (ok a >>= f) = f a := rfl
@[simp] theorem bind_err {α β : Type} (e : Errno) (f : α → Res β) : (err e >>= f) = err e := rfl
@[simp] theorem bind_ub {α β : Type} (u : Fault) (f : α → Res β) : (ub u >>= f) = ub u := rfl

@[simp] theorem safe_ok {α : Type} (a : α) : Safe (ok a) := fun _ h => by cases h
@[simp] theorem safe_err {α : Type} (e : Errno) : Safe (err e : Res α) := fun _ h => by cases h
@[simp] theorem not_safe_ub {α : Type} (u : Fault) : ¬ Safe (ub u : Res α) := fun h => h u rfl

instance {α : Type} (r : Res α) : Decidable (Safe r) :=
  match r with
  | ok _ => isTrue (safe_ok _)
  | err _ => isTrue (safe_err _)
  | ub _ => isFalse (not_safe_ub _)

end Res

/-- Read one octet of a buffer at an index; outside the buffer is undefined behaviour. -/
def rd (b : Octets) (i : Nat) : Res Nat :=
  match b[i]? with
  | some x => .ok x.toNat
  | none => .ub .outOfBounds

/-- Read `n` consecutive octets starting at `i` (a `memcpy` source); outside the buffer is
undefined behaviour. -/
def rdN (b : Octets) (i n : Nat) : Res Octets :=
  if i + n ≤ b.length then .ok ((b.drop i).take n) else .ub .outOfBounds

theorem rd_of_lt {b : Octets} {i : Nat} (h : i < b.length) : rd b i = .ok (b[i]).toNat := by
  simp [rd, h]

theorem rd_safe_iff {b : Octets} {i : Nat} : (rd b i).Safe ↔ i < b.length := by
  by_cases h : i < b.length
  · simp [rd_of_lt h, h]
  · simp [rd, h]

theorem rdN_of_le {b : Octets} {i n : Nat} (h : i + n ≤ b.length) :
    rdN b i n = .ok ((b.drop i).take n) := by simp [rdN, h]

end Verif
