import Verif.Spec.Codel

/-!
# C26: CoDel
-/
namespace Verif.Props

open Verif.Spec Verif.Rlc

theorem after_snoc (s : Codel) (ts : List Taken) (t : Taken) :
    after s (ts ++ [t]) = ((after s ts).control t.recv t.now t.bytes).1 := by simp [after]

theorem okToDrop_keeps (s : Codel) (now : Int) : (s.okToDrop now).1.firstAbove = s.firstAbove ∧
    (s.okToDrop now).1.interval = s.interval ∧ (s.okToDrop now).1.target = s.target ∧
    (s.okToDrop now).1.maxpacket = s.maxpacket := by
  unfold Codel.okToDrop
  split
  · simp only
    split <;> simp
  · split <;> simp

theorem control_params (s : Codel) (r n : Int) (b : Nat) : (s.control r n b).1.interval = s.interval ∧
    (s.control r n b).1.target = s.target ∧ (s.control r n b).1.maxpacket = s.maxpacket := by
  unfold Codel.control
  repeat' split
  all_goals first | exact ⟨rfl, rfl, rfl⟩ | exact ⟨(okToDrop_keeps s n).2.1, (okToDrop_keeps s n).2.2⟩

theorem after_params (s : Codel) (ts : List Taken) : (after s ts).interval = s.interval ∧
    (after s ts).target = s.target ∧ (after s ts).maxpacket = s.maxpacket := by
  induction ts generalizing s with
  | nil => exact ⟨rfl, rfl, rfl⟩
  | cons t ts ih =>
    obtain ⟨a, b, c⟩ := ih (s.control t.recv t.now t.bytes).1
    obtain ⟨a', b', c'⟩ := control_params s t.recv t.now t.bytes
    exact ⟨a.trans a', b.trans b', c.trans c'⟩

theorem late_of_firstAbove {s : Codel} {t : Taken} (h : (s.control t.recv t.now t.bytes).1.firstAbove ≠ 0) :
    t.Late s.target s.maxpacket ∧
      (s.firstAbove = 0 ∧ (s.control t.recv t.now t.bytes).1.firstAbove = t.now + s.interval ∨
       s.firstAbove ≠ 0 ∧ (s.control t.recv t.now t.bytes).1.firstAbove = s.firstAbove) := by
  unfold Codel.control at *
  unfold Taken.Late
  by_cases h1 : t.now - t.recv < s.target
  · simp [h1] at h
  · by_cases h2 : t.bytes ≤ s.maxpacket
    · simp [h1, h2] at h
    · refine ⟨by omega, ?_⟩
      simp only [h1, h2, if_false] at h ⊢
      by_cases h3 : s.firstAbove = 0
      · simp only [h3, if_true] at h ⊢
        exact Or.inl ⟨trivial, trivial⟩
      · simp only [h3, if_false] at h ⊢
        refine Or.inr ⟨h3, ?_⟩
        split
        · rfl
        · exact (okToDrop_keeps s t.now).1

theorem firstAbove_inv (ms : Int) (ts : List Taken) (h : (after (codelFor ms) ts).firstAbove ≠ 0) :
    ∃ a m b, ts = a ++ m :: b ∧ (after (codelFor ms) ts).firstAbove = m.now + (codelFor ms).interval ∧
      ∀ x ∈ m :: b, x.Late (codelFor ms).target (codelFor ms).maxpacket := by
  generalize hl : ts.length = n
  induction n generalizing ts with
  | zero =>
    have : ts = [] := List.length_eq_zero_iff.1 hl
    subst this
    exact absurd rfl h
  | succ n ih =>
    obtain ⟨ts', t, rfl⟩ : ∃ ts' t, ts = ts' ++ [t] := by
      rcases List.eq_nil_or_concat ts with e | ⟨ts', t, e⟩
      · subst e; simp at hl
      · exact ⟨ts', t, by simpa using e⟩
    rw [after_snoc] at h ⊢
    obtain ⟨p1, p2, p3⟩ := after_params (codelFor ms) ts'
    obtain ⟨hlate, hc⟩ := late_of_firstAbove h
    rw [p2, p3] at hlate
    rcases hc with ⟨_, hc⟩ | ⟨hne, hc⟩
    · refine ⟨ts', t, [], rfl, by rw [hc, p1], ?_⟩
      intro x hx
      simp at hx
      rw [hx]; exact hlate
    · obtain ⟨a, m, b, e1, e2, e3⟩ := ih ts' hne (by simp at hl; omega)
      refine ⟨a, m, b ++ [t], by rw [e1]; simp, by rw [hc, e2], ?_⟩
      intro x hx
      simp at hx
      rcases hx with rfl | hx | rfl
      · exact e3 x (by simp)
      · exact e3 x (by simp [hx])
      · exact hlate

theorem dropped_ok {s : Codel} {t : Taken} (h : dropped s t = true) :
    t.Late s.target s.maxpacket ∧ s.firstAbove ≠ 0 ∧ s.firstAbove ≤ t.now ∧
      s.control t.recv t.now t.bytes = s.okToDrop t.now := by
  unfold dropped Codel.control at h
  unfold Taken.Late Codel.control
  by_cases h1 : t.now - t.recv < s.target
  · simp [h1] at h
  · by_cases h2 : t.bytes ≤ s.maxpacket
    · simp [h1, h2] at h
    · by_cases h3 : s.firstAbove = 0
      · simp [h1, h2, h3] at h
      · by_cases h4 : t.now < s.firstAbove
        · simp [h1, h2, h3, h4] at h
        · simp only [h1, h2, h3, h4, if_false]
          exact ⟨by omega, by simp [h3], by omega, trivial⟩

/-- **C26**, when packets are dropped: for every configured interval and every history of packets, a packet is
dropped only if it stayed in the queue for the target time and there was an earlier packet, taken out at least a
full interval before, such that this packet and all packets taken out since stayed for the target time (and had
more than one maximum packet behind them). -/
theorem c26_drop_only_after_interval (ms : Int) (ts : List Taken) (t : Taken)
    (h : dropped (after (codelFor ms) ts) t = true) :
    (codelFor ms).target ≤ t.now - t.recv ∧
    ∃ a m b, ts = a ++ m :: b ∧ (codelFor ms).interval ≤ t.now - m.now ∧
      ∀ x ∈ (m :: b) ++ [t], x.Late (codelFor ms).target (codelFor ms).maxpacket := by
  obtain ⟨hl, h1, h2, _⟩ := dropped_ok h
  obtain ⟨p1, p2, p3⟩ := after_params (codelFor ms) ts
  rw [p2, p3] at hl
  obtain ⟨a, m, b, e1, e2, e3⟩ := firstAbove_inv ms ts h1
  refine ⟨hl.1, a, m, b, e1, by omega, ?_⟩
  intro x hx
  simp only [List.mem_append, List.mem_singleton] at hx
  rcases hx with hx | rfl
  · exact e3 x hx
  · exact hl

/-- The interval and the target: 5 % (13/256) of it, in whole milliseconds. -/
theorem c26_parameters (ms : Nat) (h : 0 < ms) : (codelFor ms).interval = ms * 1000000 ∧
    (codelFor ms).target = (ms * 13 / 256 : Nat) * 1000000 ∧ (codelFor ms).maxpacket = 512 ∧
    (codelFor 0).interval = 100 * 1000000 := by
  have h0 : ms ≠ 0 := by omega
  simp [codelFor, Codel.setInterval, h0, Codel.init]

/-- **C26**, the spacing of drops, inside an episode of late packets: after a drop of `t` there is a time `due`
(at `t.now` plus the spacing if the episode starts with it) such that no late packet taken out before `due` is
dropped, the first late one taken out at `due` or later is dropped, whatever number of packets is taken out in
between; the drop counter then is one higher and the next time due is later than `due` by the interval divided by
the square root of the drop counter. -/
theorem c26_spacing (ms : Int) (ts : List Taken) (t : Taken) (h : dropped (after (codelFor ms) ts) t = true)
    (mid : List Taken) (t2 : Taken)
    (hmid : ∀ x ∈ mid, x.Late (codelFor ms).target (codelFor ms).maxpacket ∧ t.now ≤ x.now ∧
      x.now < (after (codelFor ms) (ts ++ [t])).dropNext)
    (ht2 : t2.Late (codelFor ms).target (codelFor ms).maxpacket) (hc : t.now ≤ t2.now) :
    let s := after (codelFor ms) (ts ++ [t])
    let s2 := after (codelFor ms) (ts ++ [t] ++ mid ++ [t2])
    (∀ m x m', mid = m ++ x :: m' → dropped (after (codelFor ms) (ts ++ [t] ++ m)) x = false) ∧
    (dropped (after (codelFor ms) (ts ++ [t] ++ mid)) t2 = true ↔ s.dropNext ≤ t2.now) ∧
    (s.dropNext ≤ t2.now → s2.count = s.count + 1 ∧
      s2.dropNext = s.dropNext + (codelFor ms).interval / 1000 * invSqrt s2.count / 256 * 1000) ∧
    ((after (codelFor ms) ts).dropping = false →
      s.dropNext = t.now + (codelFor ms).interval / 1000 * invSqrt s.count / 256 * 1000) ∧
    1 ≤ s.count := by
  intro s s2
  obtain ⟨_, f1, f2, f3⟩ := dropped_ok h
  obtain ⟨p1, p2, p3⟩ := after_params (codelFor ms) ts
  obtain ⟨q1, q2, q3⟩ := after_params (codelFor ms) (ts ++ [t])
  have hs : s = ((after (codelFor ms) ts).okToDrop t.now).1 := by
    show after (codelFor ms) (ts ++ [t]) = _
    rw [after_snoc, f3]
  have hsf : s.firstAbove = (after (codelFor ms) ts).firstAbove := by
    rw [hs]; exact (okToDrop_keeps _ _).1
  have hd : dropped (after (codelFor ms) ts) t = ((after (codelFor ms) ts).okToDrop t.now).2 := by
    unfold dropped; rw [f3]
  rw [h] at hd
  have hdrop : s.dropping = true ∧ 1 ≤ s.count ∧ ((after (codelFor ms) ts).dropping = false →
      s.dropNext = t.now + s.controlLaw) := by
    rw [hs]
    revert hd
    generalize after (codelFor ms) ts = z
    unfold Codel.okToDrop
    cases hz : z.dropping with
    | false =>
      simp only [Bool.not_false, if_true]
      split
      · intro hx; cases hx
      · intro _
        refine ⟨rfl, ?_, fun _ => rfl⟩
        simp only
        split
        · rename_i hx
          simp at hx; omega
        · omega
    | true =>
      simp only [Bool.not_true, Bool.false_eq_true, if_false]
      split
      · intro hx; cases hx
      · intro _
        refine ⟨rfl, ?_, nofun⟩
        simp only
        omega
  -- what a late packet meets in state `s`
  have hctl : ∀ x : Taken, x.Late (codelFor ms).target (codelFor ms).maxpacket → t.now ≤ x.now →
      s.control x.recv x.now x.bytes = s.okToDrop x.now := by
    intro x hx hn
    have g1 : ¬ (x.now - x.recv < s.target) := by
      have := hx.1
      have e : s.target = (codelFor ms).target := q2
      omega
    have g2 : ¬ (x.bytes ≤ s.maxpacket) := by
      have := hx.2
      have e : s.maxpacket = (codelFor ms).maxpacket := q3
      omega
    have g3 : ¬ (s.firstAbove = 0) := by rw [hsf]; exact f1
    have g4 : ¬ (x.now < s.firstAbove) := by rw [hsf]; omega
    unfold Codel.control
    simp only [g1, g2, g3, g4, if_false]
  have hstay : ∀ x : Taken, x.Late (codelFor ms).target (codelFor ms).maxpacket → t.now ≤ x.now →
      x.now < s.dropNext → s.control x.recv x.now x.bytes = (s, false) := by
    intro x hx hn hlt
    rw [hctl x hx hn]
    unfold Codel.okToDrop
    simp only [hdrop.1, Bool.not_true, Bool.false_eq_true, if_false, hlt, if_true]
  have happ : ∀ m : List Taken, (∀ x ∈ m, x.Late (codelFor ms).target (codelFor ms).maxpacket ∧ t.now ≤ x.now ∧
      x.now < s.dropNext) → after s m = s := by
    intro m hm
    induction m with
    | nil => rfl
    | cons x m ih =>
      obtain ⟨a, b, c⟩ := hm x (by simp)
      show after (s.control x.recv x.now x.bytes).1 m = s
      rw [hstay x a b c]
      exact ih fun y hy => hm y (by simp [hy])
  have hsplit : ∀ m : List Taken, after (codelFor ms) (ts ++ [t] ++ m) = after s m := by
    intro m
    show _ = after (after (codelFor ms) (ts ++ [t])) m
    simp [after]
  refine ⟨?_, ?_, ?_, ?_, hdrop.2.1⟩
  · intro m x m' e
    have hm : ∀ y ∈ m, y.Late (codelFor ms).target (codelFor ms).maxpacket ∧ t.now ≤ y.now ∧ y.now < s.dropNext :=
      fun y hy => hmid y (by rw [e]; simp [hy])
    obtain ⟨a, b, c⟩ := hmid x (by rw [e]; simp)
    rw [hsplit, happ m hm]
    unfold dropped
    rw [hstay x a b c]
  · rw [hsplit, happ mid hmid]
    unfold dropped
    rw [hctl t2 ht2 hc]
    unfold Codel.okToDrop
    simp only [hdrop.1, Bool.not_true, Bool.false_eq_true, if_false]
    split
    · constructor
      · intro hx; cases hx
      · intro _; omega
    · constructor
      · intro _; omega
      · intro _; rfl
  · intro hge
    have e : s2 = (s.okToDrop t2.now).1 := by
      show after (codelFor ms) (ts ++ [t] ++ mid ++ [t2]) = _
      rw [after_snoc, hsplit, happ mid hmid, hctl t2 ht2 hc]
    rw [e]
    unfold Codel.okToDrop
    have hlt : ¬ (t2.now < s.dropNext) := by omega
    simp only [hdrop.1, Bool.not_true, Bool.false_eq_true, if_false, hlt, Codel.controlLaw]
    have : s.interval = (codelFor ms).interval := q1
    rw [this]
    exact ⟨trivial, rfl⟩
  · intro hz
    have := hdrop.2.2 hz
    rw [this, Codel.controlLaw]
    have : s.interval = (codelFor ms).interval := q1
    rw [this]

/-- **C26**, the factor: 256 divided by the square root of the counter, rounded down, for counters 2 to 256; it is
limited to 255 for counter 1 and stays 16 above 256. -/
theorem c26_factor (count : Nat) (h : 1 ≤ count) :
    (2 ≤ count → count ≤ 256 → IsInvSqrt (invSqrt count) count) ∧ (count = 1 → invSqrt count = 255) ∧
    (256 ≤ count → invSqrt count = 16) := by
  refine ⟨fun h2 h3 => ?_, fun h1 => by subst h1; decide +kernel, fun h4 => ?_⟩
  · have : ∀ c, c < 257 → 2 ≤ c → (invSqrt c * invSqrt c * c ≤ 65536 ∧
      65536 < (invSqrt c + 1) * (invSqrt c + 1) * c) := by decide +kernel
    exact this count (by omega) h2
  · have hl : invSqrtTab.length = 227 := by decide +kernel
    unfold invSqrt
    rw [hl, if_pos (by omega)]

/-- Not vacuous: with an interval of 100 ms, packets that wait 50 ms and are taken out every 60 ms: the fifth is
dropped, the next one due follows 99.609 ms later. -/
example :
    let ms (n : Nat) : Int := n * 1000000
    let pk (n : Nat) : Taken := ⟨ms n - ms 50, ms n, 5000⟩
    let ts := [pk 1000, pk 1060, pk 1120, pk 1180]
    dropped (after (codelFor 100) ts) (pk 1240) = true ∧
      (after (codelFor 100) (ts ++ [pk 1240])).dropNext = ms 1240 + 99609000 ∧
      dropped (after (codelFor 100) (ts ++ [pk 1240, pk 1300])) (pk 1360) = true := by decide +kernel

end Verif.Props
