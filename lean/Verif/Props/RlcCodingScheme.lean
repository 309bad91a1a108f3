import Verif.Rlc.CodingScheme
import Verif.Rlc.LlcQueueLemmas
import Verif.Spec.CodingScheme

/-!
# C35, C36, C37, C65: coding schemes and the requested octet count
-/
namespace Verif.Props

open Verif.Spec Verif.Rlc

/-- **C35**, uplink: a size is recognised as a scheme exactly if it is the block size of this scheme. -/
theorem c35_size_ul (size cs : Nat) (h : 1 ≤ cs ∧ cs ≤ 13) : getBySizeUl size = cs ↔ sizeUl cs = size := by
  have h1 : ∀ cs, cs < 14 → 1 ≤ cs → getBySizeUl (sizeUl cs) = cs := by decide +kernel
  have h2 : ∀ n, n < 156 → getBySizeUl n ≠ 0 → sizeUl (getBySizeUl n) = n := by decide +kernel
  have h3 : ∀ n, 156 ≤ n → getBySizeUl n = 0 := by
    intro n hn
    unfold getBySizeUl
    split <;> first | omega | rfl
  constructor
  · intro hs
    rcases Nat.lt_or_ge size 156 with hl | hl
    · rw [← hs]
      exact h2 size hl (by omega)
    · rw [h3 size hl] at hs
      omega
  · intro hs
    rw [← hs]
    exact h1 cs (by omega) h.1

/-- **C35**, full statement for the downlink. -/
def C35DlStatement : Prop := ∀ size cs : Nat, 1 ≤ cs ∧ cs ≤ 13 → (getBySizeDl size = cs ↔ sizeDl cs = size)

/-- **C35**, downlink, proved part: CS-1 … CS-4 and MCS-1 … MCS-4.  Missing: MCS-5 … MCS-9, for which it is false. -/
theorem c35_size_dl_partial (size cs : Nat) (h : 1 ≤ cs ∧ cs ≤ 8) : getBySizeDl size = cs ↔ sizeDl cs = size := by
  have h1 : ∀ cs, cs < 9 → 1 ≤ cs → getBySizeDl (sizeDl cs) = cs := by decide +kernel
  have h2 : ∀ n, n < 156 → getBySizeDl n ≠ 0 → getBySizeDl n ≤ 8 → sizeDl (getBySizeDl n) = n := by decide +kernel
  have h3 : ∀ n, 156 ≤ n → getBySizeDl n = 0 := by
    intro n hn
    unfold getBySizeDl
    split <;> first | omega | rfl
  constructor
  · intro hs
    rcases Nat.lt_or_ge size 156 with hl | hl
    · rw [← hs]
      exact h2 size hl (by omega) (by omega)
    · rw [h3 size hl] at hs
      omega
  · intro hs
    rw [← hs]
    exact h1 cs (by omega) h.1

/-- **C35** is false of the code for downlink blocks of MCS-5 … MCS-9: none is recognised by its own size. -/
theorem c35_size_dl_violated : ¬ C35DlStatement ∧ ∀ cs, 9 ≤ cs ∧ cs ≤ 13 → getBySizeDl (sizeDl cs) ≠ cs := by
  have h : ∀ cs, cs < 14 → 9 ≤ cs → getBySizeDl (sizeDl cs) ≠ cs := by decide +kernel
  exact ⟨fun hx => h mcs5 (by decide) (by decide) ((hx _ _ (by decide)).2 rfl), fun cs hc => h cs (by omega) hc.1⟩

/-- Not vacuous: CS-2 and its 34 octets. -/
example : getBySizeUl 34 = cs2 ∧ sizeUl cs2 = 34 ∧ getBySizeDl 34 = cs2 ∧ getBySizeUl 35 = csUnknown := by decide

/-- The chosen scheme as a number (proof helper). -/
def chosen (i c : Nat) (reseg : Bool) : Nat :=
  match getRetxMcs (i + 4) (c + 4) reseg with
  | .ok m => m - 4
  | _ => 0

set_option synthInstance.maxSize 1000 in
set_option synthInstance.maxHeartbeats 200000 in
/-- **C36**: for every pair of EGPRS schemes, with and without resegmentation, the scheme for the retransmission is
the one of TS 44.060. -/
theorem c36_retx_mcs (i c : Nat) (hi : 1 ≤ i ∧ i ≤ 9) (hc : 1 ≤ c ∧ c ≤ 9) :
    (∃ m, getRetxMcs (i + 4) (c + 4) true = .ok (m + 4) ∧ RightChoice (retxChoices i) c m) ∧
    (∃ m, getRetxMcs (i + 4) (c + 4) false = .ok (m + 4) ∧ RightChoice (retxChoicesWhole i) c m) := by
  have h : ∀ i, i < 10 → ∀ c, c < 10 → 1 ≤ i → 1 ≤ c → ∀ reseg : Bool,
      getRetxMcs (i + 4) (c + 4) reseg = .ok (chosen i c reseg + 4) ∧
      RightChoice (if reseg then retxChoices i else retxChoicesWhole i) c (chosen i c reseg) := by
    unfold RightChoice
    decide +kernel
  exact ⟨⟨_, h i (by omega) c (by omega) hi.1 hc.1 true⟩, ⟨_, h i (by omega) c (by omega) hi.1 hc.1 false⟩⟩

set_option synthInstance.maxSize 1000 in
set_option synthInstance.maxHeartbeats 200000 in
/-- **C36**: the scheme for the retransmission is always of the family of the original one, its blocks hold a whole
multiple or fraction of the original payload (for MCS-8 after stuffing), without resegmentation not less than the
original per block, and choosing again gives the same scheme. -/
theorem c36_retx_compatible (i c : Nat) (hi : 1 ≤ i ∧ i ≤ 9) (hc : 1 ≤ c ∧ c ≤ 9) (reseg : Bool) :
    ∃ m, 1 ≤ m ∧ m ≤ 9 ∧ getRetxMcs (i + 4) (c + 4) reseg = .ok (m + 4) ∧
      isFamilyCompat (i + 4) (m + 4) = true ∧
      (c ≤ i → m ≤ i) ∧
      (reseg = false → (info (i + 4)).dataBytes ≤ (info (m + 4)).dataBytes) ∧
      getRetxMcs (m + 4) (c + 4) reseg = .ok (m + 4) := by
  have h : ∀ i, i < 10 → ∀ c, c < 10 → 1 ≤ i → 1 ≤ c → ∀ reseg : Bool,
      1 ≤ chosen i c reseg ∧ chosen i c reseg ≤ 9 ∧ getRetxMcs (i + 4) (c + 4) reseg = .ok (chosen i c reseg + 4) ∧
      isFamilyCompat (i + 4) (chosen i c reseg + 4) = true ∧
      (c ≤ i → chosen i c reseg ≤ i) ∧
      (reseg = false → (info (i + 4)).dataBytes ≤ (info (chosen i c reseg + 4)).dataBytes ) ∧
      getRetxMcs (chosen i c reseg + 4) (c + 4) reseg = .ok (chosen i c reseg + 4) := by decide +kernel
  exact ⟨_, h i (by omega) c (by omega) hi.1 hc.1 reseg⟩

/-- Not vacuous: a block first sent with MCS-9 and MCS-5 commanded. -/
example : getRetxMcs mcs9 mcs5 true = .ok mcs3 ∧ getRetxMcs mcs9 mcs5 false = .ok mcs6 := by decide +kernel

/-- **C65**: raising and lowering a scheme stays within the kind, changes the scheme by at most one step, is limited
to the ends of the kind, and lowering undoes raising. -/
theorem c65_inc_dec (cs : Nat) (k : CsKind) (h : isCompatKind cs k = true) :
    isCompatKind (incKind cs k) k = true ∧ isCompatKind (decKind cs k) k = true ∧
    (incKind cs k = cs + 1 ∨ incKind cs k = cs ∧ ∀ o, isCompatKind o k = true → o ≤ cs) ∧
    (decKind cs k + 1 = cs ∨ decKind cs k = cs ∧ ∀ o, isCompatKind o k = true → cs ≤ o) ∧
    (incKind cs k ≠ cs → decKind (incKind cs k) k = cs) := by
  cases k <;>
    simp only [isCompatKind, isEdgeGmsk, isGprs, isEdge, incKind, decKind, Bool.and_eq_true, decide_eq_true_eq,
      Bool.not_eq_true', Bool.and_eq_false_iff, decide_eq_false_iff_not, cs1, cs4, mcs1, mcs4, mcs9] at h ⊢ <;>
    (repeat' split) <;>
    refine ⟨by omega, by omega, ?_, ?_, by omega⟩ <;>
    first
      | (left; omega)
      | (right; exact ⟨rfl, fun o ho => by omega⟩)

/-- The range of the kind (specification of `CsKind`). -/
def kindRange : CsKind → KindRange
  | .gprs => gprsRange
  | .egprsGmsk => egprsGmskRange
  | .egprs => egprsRange

/-- **C65**: the kinds are CS-1 … CS-4, MCS-1 … MCS-4 and MCS-1 … MCS-9, and raising or lowering a scheme of a kind
gives the next or previous scheme of it, or the scheme itself at the ends. -/
theorem c65_inc_dec_range (cs : Nat) (k : CsKind) :
    (isCompatKind cs k = true ↔ (kindRange k).first ≤ cs ∧ cs ≤ (kindRange k).last) ∧
    ((kindRange k).first ≤ cs ∧ cs ≤ (kindRange k).last →
      incKind cs k = min (cs + 1) (kindRange k).last ∧ decKind cs k = max (cs - 1) (kindRange k).first) ∧
    (¬ ((kindRange k).first ≤ cs ∧ cs ≤ (kindRange k).last) → incKind cs k = cs ∧ decKind cs k = cs) := by
  cases k <;>
    simp only [isCompatKind, isEdgeGmsk, isGprs, isEdge, incKind, decKind, Bool.and_eq_true, decide_eq_true_eq,
      Bool.not_eq_true', Bool.and_eq_false_iff, decide_eq_false_iff_not, cs1, cs4, mcs1, mcs4, mcs9,
      kindRange, gprsRange, egprsGmskRange, egprsRange] <;>
    refine ⟨by first | trivial | omega, fun h => ?_, fun h => ?_⟩ <;> (repeat' split) <;> omega

/-- Not vacuous: MCS-4 is the last GMSK scheme but not the last EGPRS scheme. -/
example : incKind mcs4 .egprsGmsk = mcs4 ∧ incKind mcs4 .egprs = mcs5 ∧ decKind cs1 .gprs = cs1 := by decide

/-- **C65**: the channel coding command of a scheme identifies it within its kind. -/
theorem c65_chan_code (n : Nat) : (1 ≤ n ∧ n ≤ 4 → chanCode (getGprsByNum n) = n - 1 ∧ isGprs (getGprsByNum n) = true) ∧
    (1 ≤ n ∧ n ≤ 9 → chanCode (getEgprsByNum n) = n - 1 ∧ isEdge (getEgprsByNum n) = true) ∧
    (¬ (1 ≤ n ∧ n ≤ 4) → getGprsByNum n = csUnknown) ∧ (¬ (1 ≤ n ∧ n ≤ 9) → getEgprsByNum n = csUnknown) := by
  have h : ∀ n, n < 10 → (1 ≤ n ∧ n ≤ 4 → chanCode (getGprsByNum n) = n - 1 ∧ isGprs (getGprsByNum n) = true) ∧
    (1 ≤ n ∧ n ≤ 9 → chanCode (getEgprsByNum n) = n - 1 ∧ isEdge (getEgprsByNum n) = true) := by decide +kernel
  refine ⟨fun hn => (h n (by omega)).1 hn, fun hn => (h n (by omega)).2 hn, fun hn => ?_, fun hn => ?_⟩
  · unfold getGprsByNum
    rw [if_pos (by omega)]
  · unfold getEgprsByNum
    rw [if_pos (by omega)]

end Verif.Props
