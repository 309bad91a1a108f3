import Verif.Props.RlcCodel

/-!
# C187: CoDel shortens a standing queue
-/
namespace Verif.Props

open Verif.Spec Verif.Rlc

/-- Packets are late from the next one on: nothing was taken out yet, or the last packet was not late. -/
def EpisodeStarts (ms : Int) (ts : List Taken) : Prop :=
  ts = [] ∨ ∃ a t, ts = a ++ [t] ∧ ¬ t.Late (codelFor ms).target (codelFor ms).maxpacket

/-- No packet of the list is dropped, after the history `ts`. -/
def NoneDropped (ms : Int) (ts l : List Taken) : Prop :=
  ∀ a x b, l = a ++ x :: b → dropped (after (codelFor ms) (ts ++ a)) x = false

theorem starts_firstAbove {ms : Int} {ts : List Taken} (h : EpisodeStarts ms ts) : (after (codelFor ms) ts).firstAbove = 0 := by
  rcases h with rfl | ⟨a, t, rfl, h⟩
  · rfl
  · rw [after_snoc]
    obtain ⟨_, p2, p3⟩ := after_params (codelFor ms) a
    apply Classical.byContradiction
    intro hc
    have := (late_of_firstAbove hc).1
    rw [p2, p3] at this
    exact h this

theorem interval_pos (ms : Int) : 0 < (codelFor ms).interval := by
  show 0 < (if ms ≤ 0 then 100 else ms) * 1000000
  split <;> omega

/-- The state in an episode that has seen no drop. -/
theorem episode_state {ms : Int} {ts : List Taken} {m : Taken} (hs : EpisodeStarts ms ts)
    (hm : m.Late (codelFor ms).target (codelFor ms).maxpacket) (hpos : 0 < m.now) : ∀ (mid : List Taken),
    (∀ x ∈ mid, x.Late (codelFor ms).target (codelFor ms).maxpacket) → NoneDropped ms (ts ++ [m]) mid →
    (after (codelFor ms) (ts ++ [m] ++ mid)).dropping = false ∧
    (after (codelFor ms) (ts ++ [m] ++ mid)).firstAbove = m.now + (codelFor ms).interval ∧
    (after (codelFor ms) (ts ++ [m] ++ mid)).dropNext = (after (codelFor ms) ts).dropNext := by
  have hi := interval_pos ms
  intro mid
  generalize hl : mid.length = n
  induction n generalizing mid with
  | zero =>
    intro _ _
    obtain rfl := List.length_eq_zero_iff.1 hl
    rw [List.append_nil, after_snoc]
    have h0 := starts_firstAbove hs
    obtain ⟨p1, p2, p3⟩ := after_params (codelFor ms) ts
    unfold Codel.control
    have := hm.1
    have := hm.2
    rw [if_neg (by omega), if_neg (by omega), if_pos h0, p1]
    exact ⟨rfl, rfl, rfl⟩
  | succ n ih =>
    intro hmid hnd
    obtain ⟨mid, x, rfl⟩ : ∃ a t, mid = a ++ [t] := by
      rcases List.eq_nil_or_concat mid with e | ⟨a, t, e⟩
      · subst e; simp at hl
      · exact ⟨a, t, by simpa using e⟩
    obtain ⟨d, f, q⟩ := ih mid (by simp at hl; omega) (fun y hy => hmid y (by simp [hy]))
      (fun a y b e => hnd a y (b ++ [x]) (by rw [e]; simp))
    have hx := hmid x (by simp)
    have nd := hnd mid x [] (by simp)
    rw [← List.append_assoc, after_snoc]
    obtain ⟨p1, p2, p3⟩ := after_params (codelFor ms) (ts ++ [m] ++ mid)
    generalize after (codelFor ms) (ts ++ [m] ++ mid) = s at *
    have := hx.1
    have := hx.2
    unfold dropped at nd
    unfold Codel.control at nd ⊢
    rw [if_neg (by omega), if_neg (by omega), if_neg (by omega)] at nd ⊢
    by_cases h4 : x.now < s.firstAbove
    · rw [if_pos h4]; exact ⟨rfl, f, q⟩
    · rw [if_neg h4] at nd ⊢
      unfold Codel.okToDrop at nd ⊢
      rw [d] at nd ⊢
      simp only [Bool.not_false, if_true] at nd ⊢
      split
      · exact ⟨d, f, q⟩
      · rename_i hc
        rw [if_neg hc] at nd
        cases nd

theorem dropNext_never {ms : Int} {ts : List Taken} (h : NoneDropped ms [] ts) : (after (codelFor ms) ts).dropNext = 0 := by
  generalize hl : ts.length = n
  induction n generalizing ts with
  | zero =>
    obtain rfl := List.length_eq_zero_iff.1 hl
    rfl
  | succ n ih =>
    obtain ⟨a, x, rfl⟩ : ∃ a t, ts = a ++ [t] := by
      rcases List.eq_nil_or_concat ts with e | ⟨a, t, e⟩
      · subst e; simp at hl
      · exact ⟨a, t, by simpa using e⟩
    have ih := ih (ts := a) (fun b y c e => h b y (c ++ [x]) (by rw [e]; simp)) (by simp at hl; omega)
    have nd := h a x [] (by simp)
    rw [List.nil_append] at nd
    rw [after_snoc]
    generalize after (codelFor ms) a = s at *
    unfold dropped at nd
    unfold Codel.control at nd ⊢
    repeat' split
    all_goals first | exact ih | skip
    rename_i h1 h2 h3 h4
    rw [if_neg h1, if_neg h2, if_neg h3, if_neg h4] at nd
    unfold Codel.okToDrop at nd ⊢
    split
    · rename_i hd
      rw [if_pos hd] at nd
      simp only at nd ⊢
      split
      · exact ih
      · rename_i hc
        rw [if_neg hc] at nd
        cases nd
    · rename_i hd
      rw [if_neg hd] at nd
      split
      · exact ih
      · rename_i hc
        rw [if_neg hc] at nd
        cases nd

/-- **C187** For every configured interval and every history: if, from packet `m` on, all packets taken out are
late, and none of them has been dropped up to `t`, then `t` is dropped if it is taken out two intervals after `m`
or later. -/
theorem c187_standing_queue_is_shortened (ms : Int) (ts : List Taken) (m : Taken) (mid : List Taken) (t : Taken)
    (hs : EpisodeStarts ms ts) (hpos : 0 < m.now)
    (hl : ∀ x ∈ m :: mid ++ [t], x.Late (codelFor ms).target (codelFor ms).maxpacket)
    (hnd : NoneDropped ms (ts ++ [m]) mid) (ht : m.now + 2 * (codelFor ms).interval ≤ t.now) :
    dropped (after (codelFor ms) (ts ++ [m] ++ mid)) t = true := by
  have hi := interval_pos ms
  obtain ⟨d, f, _⟩ := episode_state hs (hl m (by simp)) hpos mid (fun x hx => hl x (by simp [hx])) hnd
  obtain ⟨p1, p2, p3⟩ := after_params (codelFor ms) (ts ++ [m] ++ mid)
  have hlt := hl t (by simp)
  have := hlt.1
  have := hlt.2
  generalize after (codelFor ms) (ts ++ [m] ++ mid) = s at *
  unfold dropped Codel.control
  rw [if_neg (by omega), if_neg (by omega), if_neg (by omega), if_neg (by omega)]
  unfold Codel.okToDrop
  rw [d]
  simp only [Bool.not_false, if_true]
  rw [if_neg (by
    have : ¬ (t.now - s.firstAbove < s.interval) := by omega
    simp [this])]

/-- **C187**, not too early: as long as nothing was dropped at all, a packet is dropped exactly if it is taken out
two intervals after the first of the late packets, or later. -/
theorem c187_first_drop (ms : Int) (ts : List Taken) (m : Taken) (mid : List Taken) (t : Taken)
    (hs : EpisodeStarts ms ts) (hpos : 0 < m.now)
    (hl : ∀ x ∈ m :: mid ++ [t], x.Late (codelFor ms).target (codelFor ms).maxpacket)
    (hnd : NoneDropped ms [] (ts ++ [m] ++ mid)) :
    dropped (after (codelFor ms) (ts ++ [m] ++ mid)) t = true ↔ m.now + 2 * (codelFor ms).interval ≤ t.now := by
  have hi := interval_pos ms
  have hnd' : NoneDropped ms (ts ++ [m]) mid := fun a x b e => by
    have := hnd (ts ++ [m] ++ a) x b (by rw [e]; simp)
    rw [List.nil_append] at this
    exact this
  refine ⟨fun h => ?_, c187_standing_queue_is_shortened ms ts m mid t hs hpos hl hnd'⟩
  have hz := dropNext_never hnd
  obtain ⟨d, f, _⟩ := episode_state hs (hl m (by simp)) hpos mid (fun x hx => hl x (by simp [hx])) hnd'
  obtain ⟨p1, _, _⟩ := after_params (codelFor ms) (ts ++ [m] ++ mid)
  obtain ⟨_, _, _, he⟩ := dropped_ok h
  unfold dropped at h
  rw [he] at h
  generalize after (codelFor ms) (ts ++ [m] ++ mid) = s at *
  unfold Codel.okToDrop at h
  rw [d, hz] at h
  simp only [Bool.not_false, if_true] at h
  apply Classical.byContradiction
  intro hc
  have : t.now - s.firstAbove < s.interval := by omega
  simp [this] at h

/-- Not vacuous: with an interval of 100 ms, a packet in time and then packets that wait 50 ms, taken out every 50
ms; the fifth of these is dropped, two intervals after the first. -/
example :
    let ms (n : Nat) : Int := n * 1000000
    let pk (n : Nat) : Taken := ⟨ms n - ms 50, ms n, 5000⟩
    EpisodeStarts 100 [⟨ms 990, ms 991, 5000⟩] ∧
    (∀ x ∈ pk 1000 :: [pk 1050, pk 1100, pk 1150] ++ [pk 1200], x.Late (codelFor 100).target (codelFor 100).maxpacket) ∧
    NoneDropped 100 [] ([⟨ms 990, ms 991, 5000⟩] ++ [pk 1000] ++ [pk 1050, pk 1100, pk 1150]) ∧
    dropped (after (codelFor 100) ([⟨ms 990, ms 991, 5000⟩] ++ [pk 1000] ++ [pk 1050, pk 1100, pk 1150])) (pk 1200) = true := by
  intro ms pk
  refine ⟨.inr ⟨[], _, rfl, by rw [Taken.Late]; decide +kernel⟩, ?_, ?_, by decide +kernel⟩
  · have : ∀ x ∈ pk 1000 :: [pk 1050, pk 1100, pk 1150] ++ [pk 1200], (codelFor 100).target ≤ x.now - x.recv ∧ (codelFor 100).maxpacket < x.bytes := by
      decide +kernel
    exact this
  · have : ∀ k : Fin 5, dropped (after (codelFor 100) (([(⟨ms 990, ms 991, 5000⟩ : Taken)] ++ [pk 1000] ++ [pk 1050, pk 1100, pk 1150]).take k.val))
        (([(⟨ms 990, ms 991, 5000⟩ : Taken)] ++ [pk 1000] ++ [pk 1050, pk 1100, pk 1150])[k.val]'k.isLt) = false := by decide +kernel
    intro a x b e
    have hk : a.length < 5 := by
      have := congrArg List.length e
      simp at this
      omega
    have := this ⟨a.length, hk⟩
    simp only [e] at this
    simpa using this

end Verif.Props
