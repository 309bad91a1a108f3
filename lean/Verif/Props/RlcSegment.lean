import Verif.Rlc.BlockLemmas

/-!
# C19: RLC segmentation and reassembly
-/
namespace Verif.Props

open Verif Verif.Rlc Verif.Spec

/-- The blocks of one uplink TBF.  `Sends fin q later blocks`: the LLC data not yet sent is `q` (the first
entry may be the rest of a frame), the frames `later` are queued while the TBF is running, and the encoder
produces `blocks`.  Each block may have its own payload length `len` (of which the TLLI takes 4 octets if
present).  The last block has countdown value 0 and empties the queue, the others have another countdown
value.  `fin len tlli q` is a condition on the last block.

The encoder looks at a queued frame only when it starts to send it, so `later` also covers a frame of higher
priority that overtakes queued ones: `q ++ later` are the frames in the order the LLC queue yields them. -/
inductive Sends (fin : Nat → Option Nat → List Octets → Prop) : List Octets → List Octets → List UlBlock → Prop
  | last {len tlli q b} : hdrLen tlli < len → len < 64 → fin len tlli q →
      createBlock len 0 tlli q = .ok (b, []) → Sends fin q [] [b]
  | more {len cv tlli q b q' new later bs} : hdrLen tlli < len → len < 64 → cv ≠ 0 →
      createBlock len cv tlli q = .ok (b, q') → Sends fin (q' ++ new) later bs →
      Sends fin q (new ++ later) (b :: bs)

/-- The receiver (TS 44.060) recovers exactly `frames` from the blocks, with nothing left over. -/
def Recovered (blocks : List UlBlock) (frames : List Octets) : Prop :=
  ∃ ps, blocks.mapM (fun b => pieces b.ti b.e (b.cv = 0) b.data) = some ps ∧
    reassemble [] ps.flatten = (frames, [])

/-- C19 as listed. -/
def C19Statement : Prop :=
  ∀ q later blocks, (∀ m ∈ q ++ later, m ≠ []) → Sends (fun _ _ _ => True) q later blocks →
    Recovered blocks (q ++ later)

/-- The last block does not carry two or more frames filling it exactly without a length indicator for the
last one. -/
def NoExactFit (len : Nat) (tlli : Option Nat) (q : List Octets) : Prop :=
  2 ≤ q.length → hdrLen tlli + q.flatten.length + (q.length - 1) ≠ len

theorem glue_append {p : Octets} {a b : List Octets} (h : a ≠ []) : glue p (a ++ b) = glue p a ++ b := by
  cases a with
  | nil => exact absurd rfl h
  | cons x a => rfl

theorem block_more {len cv : Nat} {tlli : Option Nat} {q : List Octets} {b : UlBlock} {q' : List Octets}
    (h1 : hdrLen tlli < len) (h2 : len < 64) (hc : cv ≠ 0) (hne : ∀ m ∈ q, m ≠ [])
    (hb : createBlock len cv tlli q = .ok (b, q')) (p : Octets) :
    (∀ m ∈ q', m ≠ []) ∧ ∃ ps, pieces b.ti b.e (b.cv = 0) b.data = some ps ∧
      ∀ new, (reassemble p ps).1 ++ glue (reassemble p ps).2 (q' ++ new) = glue p (q ++ new) := by
  have hq : q ≠ [] := by
    intro e; subst e; simp [createBlock] at hb
  rw [createBlock_clean len cv tlli q h1 h2 hq hne] at hb
  injection hb with hb
  injection hb with hb1 hb2
  obtain ⟨ds, c1, c2, c3, c4, c5⟩ := clean_spec (decide (cv = 0)) q (len - hdrLen tlli) [] (by omega) (by omega) hne
  revert hb1 hb2 c1 c3 c4 c5
  generalize clean (decide (cv = 0)) (len - hdrLen tlli) [] q = z
  obtain ⟨z1, z2, z3⟩ := z
  simp only [List.nil_append]
  intro hb1 hb2 c1 c3 c4 c5
  subst hb1 hb2 c1
  refine ⟨c4, _, pieces_render len (hdrOf tlli) tlli.isSome (decide (cv = 0)) z1 z2 ?_ ?_ ?_, ?_⟩
  · rw [hdrOf_length]; rfl
  · intro d hd; exact ⟨hne d (c2 d hd).1, (c2 d hd).2⟩
  · intro e; exact c3 e hq
  · intro new
    have hcv : decide (cv = 0) = false := by simp [hc]
    rw [reassemble_append, reassemble_done, hcv]
    rw [hcv] at c5
    cases z2 with
    | pad =>
      have hz : z1 ≠ [] := c3 rfl hq
      simp only [tailPieces, reassemble, hz, if_false, List.append_nil, glue_nil_left]
      rw [c5.1, List.append_assoc, glue_append hz]
    | opn t =>
      obtain ⟨ht, r, tl, e1, e2⟩ := c5
      simp only [tailPieces, ht, ne_eq, not_false_eq_true, if_true, reassemble, List.append_nil, e1, e2]
      by_cases hz : z1 = []
      · subst hz; simp [glue]
      · rw [List.append_assoc, glue_append hz]; simp [hz, glue]
    | li0 t =>
      obtain ⟨_, r, tl, e1, e2⟩ := c5
      rw [e1, e2]
      by_cases ht : t = []
      · subst ht
        simp only [tailPieces, ne_eq, not_true_eq_false, if_false, reassemble, List.append_nil]
        by_cases hz : z1 = []
        · subst hz; simp [glue]
        · rw [List.append_assoc, glue_append hz]; simp [hz]
      · simp only [tailPieces, ht, ne_eq, not_false_eq_true, if_true, reassemble, List.append_nil]
        by_cases hz : z1 = []
        · subst hz; simp [glue]
        · rw [List.append_assoc, glue_append hz]; simp [hz, glue]
    | exact t => exact absurd c5.1 (by simp)

theorem block_last {len : Nat} {tlli : Option Nat} {q : List Octets} {b : UlBlock}
    (h1 : hdrLen tlli < len) (h2 : len < 64) (hne : ∀ m ∈ q, m ≠ []) (hf : NoExactFit len tlli q)
    (hb : createBlock len 0 tlli q = .ok (b, [])) (p : Octets) :
    ∃ ps, pieces b.ti b.e (b.cv = 0) b.data = some ps ∧ reassemble p ps = (glue p q, []) := by
  have hq : q ≠ [] := by
    intro e; subst e; simp [createBlock] at hb
  rw [createBlock_clean len 0 tlli q h1 h2 hq hne] at hb
  injection hb with hb
  injection hb with hb1 hb2
  obtain ⟨ds, c1, c2, c3, c4, c5⟩ := clean_spec (decide ((0 : Nat) = 0)) q (len - hdrLen tlli) [] (by omega) (by omega) hne
  revert hb1 hb2 c1 c3 c4 c5
  generalize clean (decide ((0 : Nat) = 0)) (len - hdrLen tlli) [] q = z
  obtain ⟨z1, z2, z3⟩ := z
  simp only [List.nil_append]
  intro hb1 hb2 c1 c3 c4 c5
  subst hb1 hb2 c1
  refine ⟨_, pieces_render len (hdrOf tlli) tlli.isSome (decide ((0 : Nat) = 0)) z1 z2 ?_ ?_ ?_, ?_⟩
  · rw [hdrOf_length]; rfl
  · intro d hd; exact ⟨hne d (c2 d hd).1, (c2 d hd).2⟩
  · intro e; exact c3 e hq
  · rw [reassemble_append, reassemble_done]
    cases z2 with
    | pad =>
      have hz : z1 ≠ [] := c3 rfl hq
      simp only [tailPieces, reassemble, hz, if_false, List.append_nil]
      have := c5.1
      simp only [List.append_nil] at this
      rw [this]
    | opn t => obtain ⟨_, r, tl, e1, _⟩ := c5; simp at e1
    | li0 t => obtain ⟨_, r, tl, e1, _⟩ := c5; simp at e1
    | exact t =>
      obtain ⟨_, ht, e1, e2⟩ := c5
      by_cases hz : z1 = []
      · subst hz
        simp [tailPieces, ht, reassemble, glue, e1]
      · exfalso
        have hl : 1 ≤ z1.length := List.length_pos_iff.2 hz
        refine hf ?_ ?_
        · rw [e1]; simp; omega
        · rw [e1]
          simp [used] at e2 ⊢
          omega

theorem sends_recovered {q later : List Octets} {blocks : List UlBlock}
    (h : Sends NoExactFit q later blocks) : (∀ m ∈ q ++ later, m ≠ []) → ∀ p,
    ∃ ps, blocks.mapM (fun b => pieces b.ti b.e (b.cv = 0) b.data) = some ps ∧
      reassemble p ps.flatten = (glue p (q ++ later), []) := by
  induction h with
  | last h1 h2 h3 h4 =>
    intro hne p
    obtain ⟨ps, a, b⟩ := block_last h1 h2 (by simpa using hne) h3 h4 p
    exact ⟨[ps], by simp [a], by simpa using b⟩
  | @more len cv tlli q b q' new later bs h1 h2 h3 h4 h5 ih =>
    intro hne p
    obtain ⟨a, ps, c, d⟩ := block_more h1 h2 h3 (fun m hm => hne m (by simp [hm])) h4 p
    obtain ⟨ps', e, f⟩ := ih (by
      intro m hm
      simp only [List.append_assoc, List.mem_append] at hm
      rcases hm with hm | hm
      · exact a m hm
      · exact hne m (by simp [hm])) (reassemble p ps).2
    refine ⟨ps :: ps', by simp [c, e], ?_⟩
    rw [List.flatten_cons, reassemble_append, f]
    have := d (new ++ later)
    simp only [List.append_assoc]
    rw [this]

/-- C19, partial: blocks in which the last frame of the TBF fills the rest of the last block exactly, behind
another frame, are excluded. -/
theorem c19_segmentation_inverse_partial (q later : List Octets) (blocks : List UlBlock)
    (hne : ∀ m ∈ q ++ later, m ≠ []) (h : Sends NoExactFit q later blocks) : Recovered blocks (q ++ later) := by
  obtain ⟨ps, a, b⟩ := sends_recovered h hne []
  exact ⟨ps, a, by simpa using b⟩

theorem clean_size (isFinal : Bool) : ∀ (q : List Octets) (space : Nat) (done : List Octets), 0 < space →
    (match (clean isFinal space done q).2.1 with
      | .pad => used (clean isFinal space done q).1 ≤ used done + space
      | .opn t => used (clean isFinal space done q).1 + t.length = used done + space
      | .li0 t => used (clean isFinal space done q).1 + 1 + t.length = used done + space
      | .exact t => used (clean isFinal space done q).1 + t.length = used done + space) := by
  intro q
  induction q with
  | nil => intro space done _; simp [clean]
  | cons m q ih =>
    intro space done h0
    simp only [clean]
    by_cases h1 : m.length > space
    · simp only [h1, if_true, List.length_take]; omega
    · rw [if_neg h1]
      by_cases h2 : m.length = space
      · rw [if_pos h2]
        cases isFinal with
        | true => simp only [if_true, h2]
        | false => simp only [Bool.false_eq_true, if_false, List.length_take]; omega
      · rw [if_neg h2]
        have hu := used_snoc done m
        by_cases h3 : m.length + 1 = space
        · simp only [h3, if_true]; omega
        · rw [if_neg h3]
          have := ih (space - 1 - m.length) (done ++ [m]) (by omega)
          revert this
          generalize clean isFinal (space - 1 - m.length) (done ++ [m]) q = z
          obtain ⟨z1, z2, z3⟩ := z
          cases z2 <;> simp only <;> omega

theorem render_length (len : Nat) (hdr : Octets) (isFinal : Bool) (q : List Octets) (h : hdr.length < len) :
    (render len hdr (clean isFinal (len - hdr.length) [] q).1 (clean isFinal (len - hdr.length) [] q).2.1).length =
      len := by
  have := clean_size isFinal q (len - hdr.length) [] (by omega)
  revert this
  generalize clean isFinal (len - hdr.length) [] q = z
  obtain ⟨z1, z2, z3⟩ := z
  have hn : used ([] : List Octets) = 0 := rfl
  cases z2 <;> simp only [hn, render, List.length_append, lisEnd_length, List.length_cons, List.length_replicate] <;>
    simp only [used] <;> omega

theorem flatten_pos {ds : List Octets} (h : ds ≠ []) (hne : ∀ d ∈ ds, d ≠ []) : 0 < ds.flatten.length := by
  cases ds with
  | nil => exact absurd rfl h
  | cons d ds =>
    have : 0 < d.length := List.length_pos_iff.2 (hne d (by simp))
    simp; omega

/-- The encoder never faults and always makes progress: whatever is queued, a block with room for at least
two octets of LLC data takes some of it. -/
theorem c19_encoder_progress (len cv : Nat) (tlli : Option Nat) (q : List Octets) (h1 : hdrLen tlli + 1 < len)
    (h2 : len < 64) (hq : q ≠ []) (hne : ∀ m ∈ q, m ≠ []) :
    ∃ b q', createBlock len cv tlli q = .ok (b, q') ∧ b.data.length = len ∧ b.cv = cv ∧ (∀ m ∈ q', m ≠ []) ∧
      q'.flatten.length < q.flatten.length := by
  obtain ⟨ds, c1, c2, c3, c4, c5⟩ := clean_spec (decide (cv = 0)) q (len - hdrLen tlli) [] (by omega) (by omega) hne
  have hsz := clean_size (decide (cv = 0)) q (len - hdrLen tlli) [] (by omega)
  refine ⟨_, _, createBlock_clean len cv tlli q (by omega) h2 hq hne, ?_, rfl, c4, ?_⟩
  · have := render_length len (hdrOf tlli) (decide (cv = 0)) q (by rw [hdrOf_length]; omega)
    rwa [hdrOf_length] at this
  · have hds : ds ≠ [] → 0 < ds.flatten.length := fun h => flatten_pos h fun d hd => hne d (c2 d hd).1
    revert c1 c3 c5 hsz
    generalize clean (decide (cv = 0)) (len - hdrLen tlli) [] q = z
    obtain ⟨z1, z2, z3⟩ := z
    simp only [List.nil_append]
    intro c1 c3 c5 hsz
    subst c1
    cases z2 with
    | pad =>
      have := hds (c3 rfl hq)
      rw [c5.1]
      simp only [List.flatten_append, List.length_append]
      omega
    | opn t =>
      obtain ⟨ht, r, tl, e1, e2⟩ := c5
      have : 0 < t.length := List.length_pos_iff.2 ht
      rw [e1, e2]
      simp only [List.flatten_append, List.flatten_cons, List.length_append]
      omega
    | li0 t =>
      obtain ⟨_, r, tl, e1, e2⟩ := c5
      rw [e1, e2]
      simp only [List.flatten_append, List.flatten_cons, List.length_append]
      by_cases hz : z1 = []
      · subst hz
        simp [used] at hsz
        omega
      · have := hds hz
        omega
    | exact t =>
      obtain ⟨_, ht, e1, e2⟩ := c5
      have : 0 < t.length := List.length_pos_iff.2 ht
      rw [e1]
      simp only [List.flatten_append, List.flatten_cons, List.length_append]
      omega

theorem clean_final_nil : ∀ (q : List Octets) (space : Nat) (done : List Octets),
    (clean false space done q).2.2 = [] → (clean true space done q).2.2 = [] := by
  intro q
  induction q with
  | nil => intro space done _; rfl
  | cons m q ih =>
    intro space done h
    simp only [clean] at h ⊢
    by_cases h1 : m.length > space
    · simp [h1] at h
    · rw [if_neg h1] at h ⊢
      by_cases h2 : m.length = space
      · simp [h2] at h
      · rw [if_neg h2] at h ⊢
        by_cases h3 : m.length + 1 = space
        · rw [if_pos h3] at h ⊢; exact h
        · rw [if_neg h3] at h ⊢; exact ih _ _ h

/-- Every queue can be sent: the hypothesis of `c19_segmentation_inverse_partial` can be met up to the
condition on the last block, for every payload length and any frames. -/
theorem c19_everything_is_sent (len : Nat) (h1 : 1 < len) (h2 : len < 64) : ∀ (n : Nat) (q : List Octets),
    q.flatten.length ≤ n → q ≠ [] → (∀ m ∈ q, m ≠ []) → ∃ blocks, Sends (fun _ _ _ => True) q [] blocks := by
  intro n
  induction n with
  | zero =>
    intro q hn hq hne
    have := flatten_pos hq hne
    omega
  | succ n ih =>
    intro q hn hq hne
    obtain ⟨b0, q0, e0, _, _, _, _⟩ := c19_encoder_progress len 0 none q (by simpa [hdrLen] using h1) h2 hq hne
    obtain ⟨b1, q1, e1, _, _, f1, f2⟩ := c19_encoder_progress len 1 none q (by simpa [hdrLen] using h1) h2 hq hne
    by_cases hz : q1 = []
    · have : q0 = [] := by
        rw [createBlock_clean len 0 none q (by simp [hdrLen]; omega) h2 hq hne] at e0
        rw [createBlock_clean len 1 none q (by simp [hdrLen]; omega) h2 hq hne] at e1
        injection e0 with e0
        injection e0 with _ e0
        injection e1 with e1
        injection e1 with _ e1
        rw [← e0]
        exact clean_final_nil _ _ _ (e1.trans hz)
      subst this
      exact ⟨[b0], .last (by simp [hdrLen]; omega) h2 trivial e0⟩
    · obtain ⟨bs, h⟩ := ih q1 (by omega) hz f1
      exact ⟨b1 :: bs, .more (new := []) (later := []) (by simp [hdrLen]; omega) h2 (by decide) e1 (by simpa using h)⟩

/-- A TBF of two blocks of 6 octets: a frame of 8 octets and, queued in between, one of 2 octets. -/
example : Sends NoExactFit [[1, 2, 3, 4, 5, 6, 7, 8]] [[9, 10]]
    [{ ti := false, e := true, cv := 1, data := [1, 2, 3, 4, 5, 6] },
     { ti := false, e := false, cv := 0, data := [10, 9, 7, 8, 9, 10] }] := by
  refine .more (len := 6) (cv := 1) (tlli := none) (q' := [[7, 8]]) (new := [[9, 10]]) (later := []) (by decide) (by decide)
    (by decide) (by decide +kernel) (.last (len := 6) (tlli := none) (by decide) (by decide) ?_ (by decide +kernel))
  intro _; decide

/-- C19 fails: a last block of 6 octets with frames of 2 and 3 octets.  The second frame fills the block, the
more bit of the first frame's length indicator stays 0, and the receiver takes the frame for filling. -/
theorem c19_segmentation_inverse_violated : ¬ C19Statement := by
  intro H
  have hs : Sends (fun _ _ _ => True) [[1, 2], [3, 4, 5]] [] [{ ti := false, e := false, cv := 0, data := [9, 1, 2, 3, 4, 5] }] :=
    .last (len := 6) (tlli := none) (by decide) (by decide) trivial (by decide +kernel)
  obtain ⟨ps, a, b⟩ := H _ _ _ (by simp) hs
  have : ps = [[([1, 2], true)]] := by
    have e : [({ ti := false, e := false, cv := 0, data := [9, 1, 2, 3, 4, 5] } : UlBlock)].mapM
        (fun b => pieces b.ti b.e (b.cv = 0) b.data) = some [[([1, 2], true)]] := by decide +kernel
    rw [e] at a
    injection a with a
    exact a.symm
  subst this
  revert b
  decide +kernel

end Verif.Props
