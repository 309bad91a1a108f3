import Verif.Rlc.CountdownLemmas
import Verif.Props.RlcSegment

/-!
# C23: the countdown value
-/
namespace Verif.Props

open Verif.Spec Verif.Rlc

theorem sizeOk_lt {len : Nat} {tlli : Option Nat} (h : SizeOk len tlli) :
    hdrLen tlli < len ∧ len < 64 ∧ 3 ≤ len - hdrLen tlli ∧ hdrLen tlli + 1 < len := by
  obtain ⟨a, b⟩ := h
  unfold hdrLen
  omega

/-- What a block leaves over, in terms of `needed`. -/
theorem block_needed {len : Nat} {tlli : Option Nat} (hs : SizeOk len tlli) (cv : Nat) {q : List Octets} (hq : q ≠ [])
    (hne : ∀ m ∈ q, m ≠ []) : ∃ b q', createBlock len cv tlli q = .ok (b, q') ∧ b.cv = cv ∧ (∀ m ∈ q', m ≠ []) ∧
      (cv = 0 → (q' = [] ↔ needed (len - hdrLen tlli) 0 false q ≤ 1)) ∧
      (cv ≠ 0 → 2 ≤ needed (len - hdrLen tlli) 0 false q →
        q' ≠ [] ∧ needed (len - hdrLen tlli) 0 false q' + 1 = needed (len - hdrLen tlli) 0 false q) := by
  obtain ⟨s1, s2, s3, s4⟩ := sizeOk_lt hs
  obtain ⟨b, q', hb, _, hcv, hne', _⟩ := c19_encoder_progress len cv tlli q s4 s2 hq hne
  have hc := createBlock_clean len cv tlli q s1 s2 hq hne
  rw [hb] at hc
  injection hc with hc
  injection hc with _ hc
  refine ⟨b, q', hb, hcv, hne', ?_, ?_⟩
  · intro h0
    subst h0
    rw [hc]
    exact (needed_last s3 (o := 0) (by omega)).symm
  · intro h0 h2
    have := needed_more s3 (o := 0) (done := []) (by omega) h2
    simp only [Nat.sub_zero] at this
    have e : (decide (cv = 0)) = false := by simp [h0]
    rw [e] at hc
    rw [hc]
    exact this

theorem drains_of_needed {len : Nat} {tlli : Option Nat} (hs : SizeOk len tlli) : ∀ (n : Nat) (q : List Octets),
    (∀ m ∈ q, m ≠ []) → q ≠ [] → needed (len - hdrLen tlli) 0 false q = n + 1 → Drains len tlli (n + 1) q := by
  intro n
  induction n with
  | zero =>
    intro q hne hq hn
    obtain ⟨b, q', hb, _, _, h0, _⟩ := block_needed hs 0 hq hne
    have := (h0 rfl).2 (by omega)
    subst this
    exact ⟨b, hb⟩
  | succ n ih =>
    intro q hne hq hn
    obtain ⟨b, q', hb, _, hne', _, h1⟩ := block_needed hs 1 hq hne
    obtain ⟨a1, a2⟩ := h1 (by decide) (by omega)
    exact ⟨b, q', hb, ih q' hne' a1 (by omega)⟩

theorem needed_of_drains {len : Nat} {tlli : Option Nat} (hs : SizeOk len tlli) : ∀ (n : Nat) (q : List Octets),
    (∀ m ∈ q, m ≠ []) → q ≠ [] → Drains len tlli n q → needed (len - hdrLen tlli) 0 false q ≤ n := by
  intro n
  induction n with
  | zero => intro q _ hq hd; exact absurd hd hq
  | succ n ih =>
    intro q hne hq hd
    cases n with
    | zero =>
      obtain ⟨b, hb⟩ := hd
      obtain ⟨b', q', hb', _, _, h0, _⟩ := block_needed hs 0 hq hne
      rw [hb] at hb'
      cases hb'
      exact (h0 rfl).1 rfl
    | succ n =>
      obtain ⟨b, q', hb, hd'⟩ := hd
      obtain ⟨b', q1, hb', _, hne', _, h1⟩ := block_needed hs 1 hq hne
      rw [hb] at hb'
      cases hb'
      rcases Nat.lt_or_ge (needed (len - hdrLen tlli) 0 false q) 2 with h | h
      · omega
      · obtain ⟨a1, a2⟩ := h1 (by decide) h
        have := ih q' hne' a1 hd'
        omega

/-- The state of a TBF with one timeslot. -/
structure CdInv (s : Cd) (p : TxParams) : Prop where
  size : SizeOk p.len p.tlli
  one : p.ntsK = 1
  frames : ∀ m ∈ s.q, m ≠ []
  cv : s.active = true → s.q ≠ [] → s.cv = 15 ∨
    (s.cv < 15 ∧ s.cv ≤ p.bsCvMax ∧ needed (p.len - hdrLen p.tlli) 0 false s.q = s.cv + 1)

theorem checkEnter_ok {s : Cd} {p : TxParams} (hb : p.bsCvMax ≤ 15) (h : CdInv s p) (hq : s.q ≠ []) :
    ∃ cv, s.checkEnter p = .ok ⟨s.active || decide (cv < 15), cv, s.q⟩ ∧
      (cv < 15 → cv ≤ p.bsCvMax ∧ needed (p.len - hdrLen p.tlli) 0 false s.q = cv + 1) ∧
      (15 ≤ cv → cv = 15 ∧ min p.bsCvMax 14 + 1 < needed (p.len - hdrLen p.tlli) 0 false s.q) := by
  obtain ⟨s1, s2, s3, s4⟩ := sizeOk_lt h.size
  have hpos := needed_pos (L := p.len - hdrLen p.tlli) (q := s.q) (o := 0) (by omega) (Or.inr hq)
  have hcalc := calculateCv_one h.size h.one s.q h.frames
  have hval : ∀ cv, cv = (if needed (p.len - hdrLen p.tlli) 0 false s.q - 1 ≤ p.bsCvMax
      then needed (p.len - hdrLen p.tlli) 0 false s.q - 1 else 15) →
      (cv < 15 → cv ≤ p.bsCvMax ∧ needed (p.len - hdrLen p.tlli) 0 false s.q = cv + 1) ∧
      (15 ≤ cv → cv = 15 ∧ min p.bsCvMax 14 + 1 < needed (p.len - hdrLen p.tlli) 0 false s.q) := by
    intro cv hcv
    split at hcv <;> omega
  unfold Cd.checkEnter
  cases ha : s.active with
  | false =>
    simp only [Bool.false_eq_true, if_false]
    rw [hcalc]
    exact ⟨_, rfl, hval _ rfl⟩
  | true =>
    simp only [if_true]
    by_cases h15 : s.cv = 15
    · rw [if_pos h15, hcalc]
      refine ⟨_, ?_, hval _ rfl⟩
      simp
    · rw [if_neg h15]
      refine ⟨s.cv, by rw [← ha]; obtain ⟨a, c, q⟩ := s; simp at ha; subst ha; rfl, ?_⟩
      rcases h.cv ha hq with hx | hx
      · exact absurd hx h15
      · exact ⟨fun _ => hx.2, fun hy => by omega⟩

/-- One new block. -/
theorem newBlock_ok {s : Cd} {p : TxParams} (hb : p.bsCvMax ≤ 15) (h : CdInv s p) (hq : s.q ≠ []) :
    ∃ b s', s.newBlock p = .ok (b, s') ∧ CdInv s' p ∧
      (b.cv < 15 → b.cv ≤ p.bsCvMax ∧ needed (p.len - hdrLen p.tlli) 0 false s.q = b.cv + 1 ∧ s'.active = true ∧
        s'.cv = (b.cv + 255) % 256) ∧
      (15 ≤ b.cv → b.cv = 15 ∧ min p.bsCvMax 14 + 1 < needed (p.len - hdrLen p.tlli) 0 false s.q) ∧
      (b.cv = 0 ↔ s'.q = []) := by
  obtain ⟨cv, hce, hlt, hge⟩ := checkEnter_ok hb h hq
  obtain ⟨b, q', hbl, hcv, hne', h0, h1⟩ := block_needed h.size cv hq h.frames
  have hnb : s.newBlock p = .ok (b, ⟨s.active || decide (cv < 15), if cv < 15 then (cv + 255) % 256 else cv, q'⟩) := by
    unfold Cd.newBlock
    rw [hce]
    simp only [Res.bind_ok]
    rw [hbl]
    rfl
  refine ⟨b, _, hnb, ⟨h.size, h.one, hne', ?_⟩, ?_, ?_, ?_⟩
  · intro _ hq'
    simp only at hq' ⊢
    rcases Nat.lt_or_ge cv 15 with hc | hc
    · rw [if_pos hc]
      obtain ⟨a1, a2⟩ := hlt hc
      have hc0 : cv ≠ 0 := by
        intro e
        exact hq' ((h0 e).2 (by omega))
      obtain ⟨b1, b2⟩ := h1 hc0 (by omega)
      right
      omega
    · rw [if_neg (by omega)]
      exact Or.inl (hge hc).1
  · intro hx
    rw [hcv] at hx ⊢
    obtain ⟨a1, a2⟩ := hlt hx
    simp only
    rw [if_pos hx]
    exact ⟨a1, a2, by simp [hx], rfl⟩
  · intro hx
    rw [hcv] at hx ⊢
    exact hge hx
  · rw [hcv]
    simp only
    constructor
    · intro e
      refine (h0 e).2 ?_
      have := (hlt (by omega)).2
      omega
    · intro e
      rcases Nat.eq_zero_or_pos cv with hz | hz
      · exact hz
      · exfalso
        have h2 : 2 ≤ needed (p.len - hdrLen p.tlli) 0 false s.q := by
          rcases Nat.lt_or_ge cv 15 with hc | hc
          · have := (hlt hc).2
            omega
          · have := (hge hc).2
            omega
        exact (h1 (by omega) h2).1 e

/-- One event keeps the invariant and does not fail. -/
theorem cdStep_inv {s : Cd} {p : TxParams} {e : CdEv} (hb : p.bsCvMax ≤ 15) (h : CdInv s p) (he : CdEvOk e) :
    ∃ b s' p', Cd.step (s, p) e = .ok (b, s', p') ∧ CdInv s' p' ∧ p'.bsCvMax = p.bsCvMax := by
  cases e with
  | enq i f =>
    refine ⟨none, _, p, rfl, ?_, rfl⟩
    simp only
    split
    · exact h
    · rename_i ha
      refine ⟨h.size, h.one, ?_, fun hx => absurd hx ha⟩
      intro m hm
      simp only at hm
      by_cases hi : i ≤ s.q.length
      · rcases (List.mem_insertIdx hi).1 hm with rfl | hm
        · exact he
        · exact h.frames m hm
      · rw [List.insertIdx_of_length_lt (by omega)] at hm
        exact h.frames m hm
  | change len tlli =>
    simp only [Cd.step, Cd.updateCv]
    cases ha : s.active with
    | false =>
      refine ⟨none, s, { p with len, tlli }, ?_, ⟨he, h.one, h.frames, fun hx => by rw [ha] at hx; cases hx⟩, rfl⟩
      simp
    | true =>
      have hcalc := calculateCv_one (p := { p with len, tlli }) he h.one s.q h.frames
      simp only [if_true]
      rw [hcalc]
      refine ⟨none, _, _, rfl, ⟨he, h.one, h.frames, ?_⟩, rfl⟩
      intro _ hq
      simp only at hq ⊢
      obtain ⟨s1, s2, s3, s4⟩ := sizeOk_lt he
      have hpos := needed_pos (L := len - hdrLen tlli) (q := s.q) (o := 0) (by omega) (Or.inr hq)
      split <;> omega
  | block =>
    simp only [Cd.step]
    by_cases hq : s.q = []
    · rw [if_pos hq]
      exact ⟨none, s, p, rfl, h, rfl⟩
    · rw [if_neg hq]
      obtain ⟨b, s', hnb, hi, _⟩ := newBlock_ok hb h hq
      rw [hnb]
      exact ⟨some b, s', p, rfl, hi, rfl⟩

theorem cdRun_inv : ∀ (es : List CdEv) {s : Cd} {p : TxParams}, p.bsCvMax ≤ 15 → CdInv s p → (∀ e ∈ es, CdEvOk e) →
    ∃ bs s' p', cdRun es (s, p) = .ok (bs, s', p') ∧ CdInv s' p' ∧ p'.bsCvMax = p.bsCvMax := by
  intro es
  induction es with
  | nil => intro s p _ h _; exact ⟨[], s, p, rfl, h, rfl⟩
  | cons e es ih =>
    intro s p hb h he
    obtain ⟨b, s1, p1, e1, h1, hb1⟩ := cdStep_inv hb h (he e (by simp))
    obtain ⟨bs, s2, p2, e2, h2, hb2⟩ := ih (by omega) h1 fun x hx => he x (by simp [hx])
    refine ⟨b.toList ++ bs, s2, p2, ?_, h2, by omega⟩
    simp only [cdRun]
    rw [e1]
    simp only
    rw [e2]

/-- **C23**, the full statement: in every history of a TBF with any number of timeslots, creating blocks never
fails, a block has countdown value 0 exactly if no data of the TBF is left after it, and a countdown value below 15
is followed by one that is lower or the same, unless the coding scheme or the contention resolution changes. -/
def C23Statement : Prop :=
  ∀ (p0 : TxParams) (es : List CdEv), SizeOk p0.len p0.tlli → p0.bsCvMax ≤ 15 → 1 ≤ p0.ntsK → (∀ e ∈ es, CdEvOk e) →
    ∃ bs s p, cdRun es (Cd.init, p0) = .ok (bs, s, p) ∧
      (s.q ≠ [] → ∃ b s', s.newBlock p = .ok (b, s') ∧ (b.cvOnAir = 0 ↔ s'.q = []) ∧
        (b.cvOnAir < 15 → s'.q ≠ [] → ∃ b2 s2, s'.newBlock p = .ok (b2, s2) ∧ b2.cvOnAir ≤ b.cvOnAir))

/-- **C23**, proved part: with one timeslot, for every history of arriving frames, changes of the coding scheme or of
the contention resolution and blocks sent, nothing fails, and the next block
* has a countdown value below 15 only if that many blocks follow, and it is not above BS_CV_MAX;
* has countdown value 15 only if more blocks than that follow, whatever is done to save blocks;
* has countdown value 0 exactly if no data of the TBF is left after it.
Missing: several timeslots, for which the statement is false. -/
theorem c23_countdown_value_partial (p0 : TxParams) (es : List CdEv) (hs : SizeOk p0.len p0.tlli) (hb : p0.bsCvMax ≤ 15)
    (hk : p0.ntsK = 1) (he : ∀ e ∈ es, CdEvOk e) :
    ∃ bs s p, cdRun es (Cd.init, p0) = .ok (bs, s, p) ∧
      (s.q ≠ [] → ∃ b s', s.newBlock p = .ok (b, s') ∧
        b.cvOnAir ≤ 15 ∧
        (b.cvOnAir < 15 → b.cvOnAir ≤ p0.bsCvMax ∧ Drains p.len p.tlli (b.cvOnAir + 1) s.q) ∧
        (b.cvOnAir = 15 → ∀ n, n ≤ min p0.bsCvMax 14 + 1 → ¬ Drains p.len p.tlli n s.q) ∧
        (b.cvOnAir = 0 ↔ s'.q = [])) := by
  obtain ⟨bs, s, p, e, hi, hbm⟩ := cdRun_inv es (s := Cd.init) (p := p0) hb
    ⟨hs, hk, fun m hm => absurd hm List.not_mem_nil, nofun⟩ he
  refine ⟨bs, s, p, e, fun hq => ?_⟩
  obtain ⟨b, s', hnb, _, h1, h2, h3⟩ := newBlock_ok (by omega) hi hq
  refine ⟨b, s', hnb, ?_⟩
  unfold UlBlock.cvOnAir
  have hle : b.cv ≤ 15 := by
    rcases Nat.lt_or_ge b.cv 15 with hc | hc
    · omega
    · exact (h2 hc).1 ▸ Nat.le_refl _
  rw [Nat.mod_eq_of_lt (by omega)]
  refine ⟨hle, fun hc => ?_, fun hc n hn hd => ?_, h3⟩
  · obtain ⟨a1, a2, _⟩ := h1 hc
    exact ⟨by omega, drains_of_needed hi.size b.cv s.q hi.frames hq a2⟩
  · have a1 := (h2 (by omega)).2
    have a2 := needed_of_drains hi.size n s.q hi.frames hq hd
    omega

/-- **C23**, counting down (part): with one timeslot, after a block with countdown value between 1 and 14, whatever
frames arrive, the next block has the next lower countdown value. -/
theorem c23_counts_down_partial (p0 : TxParams) (es : List CdEv) (hs : SizeOk p0.len p0.tlli) (hb : p0.bsCvMax ≤ 15)
    (hk : p0.ntsK = 1) (he : ∀ e ∈ es, CdEvOk e) (bs : List UlBlock) (s s' : Cd) (p : TxParams) (b : UlBlock)
    (hr : cdRun es (Cd.init, p0) = .ok (bs, s, p)) (hq : s.q ≠ []) (hn : s.newBlock p = .ok (b, s'))
    (hc : 0 < b.cv ∧ b.cv < 15) (arrive : List CdEv) (ha : ∀ e ∈ arrive, ∃ i f, e = .enq i f) :
    cdRun arrive (s', p) = .ok ([], s', p) ∧
    ∃ b2 s2, s'.newBlock p = .ok (b2, s2) ∧ b2.cv + 1 = b.cv := by
  obtain ⟨bs', s0, p', e, hi, hbm⟩ := cdRun_inv es (s := Cd.init) (p := p0) hb
    ⟨hs, hk, fun m hm => absurd hm List.not_mem_nil, nofun⟩ he
  rw [hr] at e
  cases e
  obtain ⟨b', s1, hnb, hi', h1, h2, h3⟩ := newBlock_ok (by omega) hi hq
  rw [hn] at hnb
  cases hnb
  obtain ⟨_, _, hact, hcv⟩ := h1 hc.2
  constructor
  · clear hn hi' h2 h3 h1 hr
    induction arrive with
    | nil => rfl
    | cons x xs ih =>
      obtain ⟨i, f, rfl⟩ := ha x (by simp)
      simp only [cdRun, Cd.step, hact, if_true]
      rw [ih fun y hy => ha y (by simp [hy])]
      rfl
  · have hq' : s'.q ≠ [] := fun hx => by
      have := h3.2 hx
      omega
    obtain ⟨b2, s2, hnb2, _⟩ := newBlock_ok (by omega) hi' hq'
    refine ⟨b2, s2, hnb2, ?_⟩
    have hce : s'.checkEnter p = .ok s' := by
      unfold Cd.checkEnter
      rw [if_pos hact, if_neg (by omega)]
    unfold Cd.newBlock at hnb2
    rw [hce] at hnb2
    simp only [Res.bind_ok] at hnb2
    obtain ⟨b3, q3, hbl, hcv3, _⟩ := block_needed hi'.size s'.cv hq' hi'.frames
    rw [hbl] at hnb2
    simp only [Res.bind_ok] at hnb2
    injection hnb2 with hnb2
    injection hnb2 with hb2 _
    rw [← hb2, hcv3]
    omega

/-- Blocks of a closed history (for examples). -/
def cvsOf (p : TxParams) (es : List CdEv) : Option (List Nat × Nat) :=
  match cdRun es (Cd.init, p) with
  | .ok (bs, s, _) => some (bs.map UlBlock.cvOnAir, s.q.length)
  | _ => none

/-- Not vacuous: CS-1 (20 octets), one timeslot, BS_CV_MAX 2, two frames of 50 octets, a third arriving while the
countdown is running is left to the next TBF. -/
example : cvsOf ⟨20, none, 2, 1⟩ [.enq 0 (List.replicate 50 1), .enq 1 (List.replicate 50 2), .block, .block, .block,
    .block, .enq 0 [7], .block, .block] = some ([15, 15, 15, 2, 1, 0], 0) := by decide +kernel

/-- **C23** is false of the code with two timeslots: five blocks are needed, the countdown value goes 2, 1, 0 with
two more blocks to go, and then shows 15 again. -/
theorem c23_countdown_value_violated : ¬ C23Statement := by
  intro h
  obtain ⟨bs, s, p, e, hn⟩ := h ⟨20, none, 15, 2⟩ [.enq 0 (List.replicate 90 1), .block, .block]
    (by unfold SizeOk; decide) (by decide) (by decide) (by
      intro e he
      simp at he
      rcases he with rfl | rfl
      · show List.replicate 90 (1 : UInt8) ≠ []
        decide
      · trivial)
  have hx : (match cdRun [.enq 0 (List.replicate 90 1), .block, .block] (Cd.init, ⟨20, none, 15, 2⟩) with
    | .ok (_, s, p) => !s.q.isEmpty && (match s.newBlock p with
      | .ok (b, s') => b.cvOnAir == 0 && !s'.q.isEmpty
      | _ => false)
    | _ => false) = true := by decide +kernel
  rw [e] at hx
  simp only [Bool.and_eq_true, Bool.not_eq_true', List.isEmpty_eq_false_iff] at hx
  obtain ⟨hq, hx⟩ := hx
  obtain ⟨b, s', e2, h0, _⟩ := hn hq
  rw [e2] at hx
  simp only [Bool.and_eq_true, Bool.not_eq_true', List.isEmpty_eq_false_iff, beq_iff_eq] at hx
  exact hx.2 (h0.1 hx.1)

/-- The values in the example above. -/
example : cvsOf ⟨20, none, 15, 2⟩ [.enq 0 (List.replicate 90 1), .block, .block, .block, .block, .block, .block] =
    some ([2, 1, 0, 15, 15], 0) := by decide +kernel

end Verif.Props
