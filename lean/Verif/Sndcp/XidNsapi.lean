import Verif.Sndcp.Xid
import Verif.Spec.SndcpXid
/-!
# SNDCP XID: proposals as fields in memory, NSAPI bit maps
-/
namespace Verif.Sndcp
open Verif.Spec.SndcpXid

/-! ## Proposals as fields of the model -/

def algKind : Alg → Kind
  | .rfc1144 .. => .rfc1144
  | .rfc2507 .. => .rfc2507
  | .rohc .. => .rohc
  | .v42bis .. => .v42bis
  | .v44 .. => .v44

def algVals : Alg → List Nat
  | .rfc1144 a => [a]
  | .rfc2507 a b c d e => [a, b, c, d, e]
  | .rohc a b _ => [a, b]
  | .v42bis a b c => [a, b, c]
  | .v44 a b c d e f => [a, b, c, d, e, f]

def algProfiles : Alg → List Nat
  | .rohc _ _ ps => ps
  | _ => []

/-- The field in memory that stands for a proposal. -/
def toField (x : Proposal) : CompField :=
  { p := true, entity := x.entity, algo := x.alg.number, comp := x.comps,
    params := some { kind := algKind x.alg, nsapis := x.nsapis,
                     vals := (algVals x.alg).map Int.ofNat, profiles := algProfiles x.alg } }

/-- The same with the profiles read back. -/
def toFieldP (x : Proposal) (ps : List Nat) : CompField :=
  { p := true, entity := x.entity, algo := x.alg.number, comp := x.comps,
    params := some { kind := algKind x.alg, nsapis := x.nsapis,
                     vals := (algVals x.alg).map Int.ofNat, profiles := ps } }

def algCls (a : Alg) : CClass := if a.isHeader then .proto else .data

theorem kindOf_alg (a : Alg) : kindOf (algCls a) a.number = some (algKind a) := by
  cases a <;> rfl

theorem cls_alg (a : Alg) : (algKind a).cls = algCls a := by
  cases a <;> rfl

theorem nComp_alg (a : Alg) : (algKind a).nComp = a.compCount := by
  cases a <;> rfl

/-! ## NSAPI bit maps -/

/-- The bit map as the bits of a number below 2^11. -/
theorem mask_of (f : Nat → Bool) : ∃ m < 2048, ∀ n ∈ userNsapis, f n = m.testBit (n - 5) := by
  have key : ∀ (k : Nat) (g : Nat → Bool), ∃ m < 2 ^ k, ∀ i < k, g i = m.testBit i := by
    intro k
    induction k with
    | zero => exact fun g => ⟨0, by decide, fun i hi => absurd hi (Nat.not_lt_zero i)⟩
    | succ k ih =>
      intro g
      obtain ⟨m, hm, hg⟩ := ih (fun i => g (i + 1))
      refine ⟨2 * m + (if g 0 then 1 else 0), ?_, ?_⟩
      · rw [Nat.pow_succ]
        split <;> omega
      · intro i hi
        cases i with
        | zero =>
          rw [Nat.testBit_zero]
          cases g 0 <;> simp <;> omega
        | succ i =>
          rw [Nat.testBit_succ, hg i (by omega)]
          congr 1
          split <;> omega
  obtain ⟨m, hm, hg⟩ := key 11 (fun i => f (i + 5))
  refine ⟨m, hm, ?_⟩
  intro n hn
  have h5 : 5 ≤ n ∧ n ≤ 15 := by
    simp only [userNsapis, List.mem_cons, List.not_mem_nil, or_false] at hn
    omega
  have := hg (n - 5) (by omega)
  simp only [Nat.sub_add_cancel h5.1] at this
  exact this

/-- The NSAPIs of the bits of a number. -/
def maskList (m : Nat) : List Nat := userNsapis.filter (fun n => m.testBit (n - 5))

def maskOk (m : Nat) : Bool :=
  ((maskList m).foldl (fun a n => a ||| (1 <<< n)) 0).beq (m * 32) &&
  ((((maskList m).map (fun n => 2 ^ n)).sum).beq (m * 32) &&
  (((((List.range 11).filter (fun i => ((m * 32) >>> 5 >>> i) % 2 = 1)).map (· + 5)) ==
      maskList m) &&
  ((maskList m).length.ble 11 && (maskList m).all (fun n => 5 ≤ n ∧ n ≤ 15))))

theorem mask_tables : (List.range 2048).all maskOk = true := by
  decide +kernel

theorem nsapi_tables (m : Nat) (hm : m < 2048) :
    (maskList m).foldl (fun a n => a ||| (1 <<< n)) 0 = m * 32 ∧
    ((maskList m).map (fun n => 2 ^ n)).sum = m * 32 ∧
    ((List.range 11).filter (fun i => ((m * 32) >>> 5 >>> i) % 2 = 1)).map (· + 5) = maskList m ∧
    (maskList m).length ≤ 11 ∧ (maskList m).all (fun n => 5 ≤ n ∧ n ≤ 15) = true := by
  have h := List.all_eq_true.mp mask_tables m (List.mem_range.mpr hm)
  rw [maskOk, Bool.and_eq_true, Bool.and_eq_true, Bool.and_eq_true, Bool.and_eq_true] at h
  obtain ⟨h1, h2, h3, h4, h5⟩ := h
  exact ⟨Nat.eq_of_beq_eq_true h1, Nat.eq_of_beq_eq_true h2, eq_of_beq h3, Nat.le_of_ble_eq_true h4, h5⟩

/-- What the coder and the decoder do with the NSAPIs of a proposal. -/
theorem nsapi_facts (x : Proposal) :
    encNsapis x.nsapis = .ok (two x.nsapiMap) ∧ x.nsapiMap < 65536 ∧
    ((List.range 11).filter (fun i => (x.nsapiMap >>> 5 >>> i) % 2 = 1)).map (· + 5) =
      x.nsapis := by
  obtain ⟨m, hm, hf⟩ := mask_of x.applies
  have hl : x.nsapis = maskList m := by
    unfold Proposal.nsapis maskList
    exact List.filter_congr hf
  obtain ⟨h1, h2, h3, h4, h5⟩ := nsapi_tables m hm
  have hmap : x.nsapiMap = m * 32 := by
    rw [Proposal.nsapiMap, hl]
    exact h2
  refine ⟨?_, by omega, ?_⟩
  · rw [encNsapis, hl, hmap, if_neg (by omega), if_pos h5, h1]
    rfl
  · rw [hmap, h3, hl]

end Verif.Sndcp
