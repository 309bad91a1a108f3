import Verif.Spec.RlcUl

/-!
# Lemmas about the RLC uplink window (proof devices)
-/
namespace Verif.Rlc

open Verif.Spec

theorem idx_mod (n : Nat) : idx (n % 128) = n % 128 := by rw [idx_eq]; omega

theorem state_mod (w : UlWin) (n : Nat) : w.state (n % 128) = w.vb (n % 128) := by
  rw [UlWin.state, idx_mod]

theorem modSns_succ (n : Nat) : modSns (n % 128 + 1) = (n + 1) % 128 := by rw [modSns_eq]; omega

/-- The block needs to be sent again. -/
def UlWin.need (w : UlWin) (n : Nat) : Prop := w.vb (n % 128) = .nacked ∨ w.vb (n % 128) = .resend

theorem resendLoop_spec (w : UlWin) (s : Nat) (hs : w.vs = s % 128) (f : Nat) : ∀ n, n ≤ s → s ≤ n + 127 →
    s - n < f →
    (w.resendLoop f (n % 128) = none ∧ ∀ m, n ≤ m → m < s → ¬ w.need m) ∨
    ∃ m, n ≤ m ∧ m < s ∧ w.resendLoop f (n % 128) = some (m % 128) ∧ w.need m ∧
      ∀ k, n ≤ k → k < m → ¬ w.need k := by
  induction f with
  | zero => intro n _ _ h; omega
  | succ f ih =>
    intro n h1 h2 h3
    by_cases he : n = s
    · subst he
      left
      refine ⟨by simp [UlWin.resendLoop, hs], fun m _ _ => by omega⟩
    · have hne : n % 128 ≠ w.vs := by rw [hs]; omega
      by_cases hn : w.need n
      · right
        refine ⟨n, by omega, by omega, ?_, hn, fun k _ _ => by omega⟩
        simp only [UlWin.resendLoop, hne, if_false, state_mod]
        exact if_pos hn
      · have hstep : w.resendLoop (f + 1) (n % 128) = w.resendLoop f ((n + 1) % 128) := by
          simp only [UlWin.resendLoop, hne, if_false, state_mod, modSns_succ]
          exact if_neg hn
        rw [hstep]
        rcases ih (n + 1) (by omega) (by omega) (by omega) with ⟨a, b⟩ | ⟨m, a, b, c, d, e⟩
        · left
          refine ⟨a, fun m hm1 hm2 => ?_⟩
          by_cases hmn : m = n
          · rw [hmn]; exact hn
          · exact b m (by omega) hm2
        · right
          refine ⟨m, by omega, b, c, d, fun k hk1 hk2 => ?_⟩
          by_cases hkn : k = n
          · rw [hkn]; exact hn
          · exact e k (by omega) hk2

theorem markResendLoop_spec (f : Nat) : ∀ (n s : Nat) (w : UlWin), w.vs = s % 128 → n ≤ s → s ≤ n + 127 →
    s - n < f →
    (UlWin.markResendLoop f (n % 128) w).1.vs = w.vs ∧ (UlWin.markResendLoop f (n % 128) w).1.va = w.va ∧
    (∀ m, n ≤ m → m < s → (UlWin.markResendLoop f (n % 128) w).1.vb (m % 128) =
      if w.vb (m % 128) = .unacked then .resend else w.vb (m % 128)) ∧
    (∀ i, (∀ m, n ≤ m → m < s → i ≠ m % 128) → (UlWin.markResendLoop f (n % 128) w).1.vb i = w.vb i) ∧
    ((UlWin.markResendLoop f (n % 128) w).2 = 0 ↔ ∀ m, n ≤ m → m < s → w.vb (m % 128) ≠ .unacked) := by
  induction f with
  | zero => intro n s w _ _ _ h; omega
  | succ f ih =>
    intro n s w hs h1 h2 h3
    by_cases he : n = s
    · subst he
      have : UlWin.markResendLoop (f + 1) (n % 128) w = (w, 0) := by simp [UlWin.markResendLoop, hs]
      rw [this]
      exact ⟨rfl, rfl, fun m _ _ => by omega, fun _ _ => rfl, fun _ m _ _ => by omega, fun _ => rfl⟩
    · have hne : n % 128 ≠ w.vs := by rw [hs]; omega
      by_cases hu : w.vb (n % 128) = .unacked
      · have hstep : UlWin.markResendLoop (f + 1) (n % 128) w =
            ((UlWin.markResendLoop f ((n + 1) % 128) (w.mark (n % 128) .resend)).1,
             (UlWin.markResendLoop f ((n + 1) % 128) (w.mark (n % 128) .resend)).2 + 1) := by
          simp only [UlWin.markResendLoop, hne, if_false, state_mod, modSns_succ]
          rw [if_pos hu]
        rw [hstep]
        obtain ⟨a, b, c, d, e⟩ := ih (n + 1) s (w.mark (n % 128) .resend) hs (by omega) (by omega) (by omega)
        refine ⟨a, b, fun m hm1 hm2 => ?_, fun i hi => ?_, ⟨fun h => by simp at h, fun h => absurd hu (h n (by omega) (by omega))⟩⟩
        · by_cases hmn : m = n
          · subst hmn
            show (UlWin.markResendLoop f ((m + 1) % 128) (w.mark (m % 128) .resend)).1.vb (m % 128) = _
            rw [d (m % 128) (fun k hk1 hk2 => by omega), if_pos hu]
            simp [UlWin.mark, idx_mod]
          · show (UlWin.markResendLoop f ((n + 1) % 128) (w.mark (n % 128) .resend)).1.vb (m % 128) = _
            rw [c m (by omega) hm2]
            have : m % 128 ≠ n % 128 := by omega
            simp [UlWin.mark, idx_mod, upd_apply, this]
        · show (UlWin.markResendLoop f ((n + 1) % 128) (w.mark (n % 128) .resend)).1.vb i = _
          rw [d i (fun m hm1 hm2 => hi m (by omega) hm2)]
          have : i ≠ n % 128 := hi n (by omega) (by omega)
          simp [UlWin.mark, idx_mod, upd_apply, this]
      · have hstep : UlWin.markResendLoop (f + 1) (n % 128) w = UlWin.markResendLoop f ((n + 1) % 128) w := by
          simp only [UlWin.markResendLoop, hne, if_false, state_mod, modSns_succ]
          rw [if_neg hu]
        rw [hstep]
        obtain ⟨a, b, c, d, e⟩ := ih (n + 1) s w hs (by omega) (by omega) (by omega)
        refine ⟨a, b, fun m hm1 hm2 => ?_, fun i hi => d i (fun m hm1 hm2 => hi m (by omega) hm2), ?_⟩
        · by_cases hmn : m = n
          · subst hmn
            rw [d (m % 128) (fun k hk1 hk2 => by omega), if_neg hu]
          · exact c m (by omega) hm2
        · rw [e]
          constructor
          · intro h m hm1 hm2
            by_cases hmn : m = n
            · rw [hmn]; exact hu
            · exact h m (by omega) hm2
          · intro h m hm1 hm2
            exact h m (by omega) hm2

theorem moveLoop_spec (f : Nat) : ∀ (n s : Nat) (w : UlWin), w.vs = s % 128 → n ≤ s → s ≤ n + 127 →
    s - n < f →
    (UlWin.moveLoop f (n % 128) w).1.vs = w.vs ∧ (UlWin.moveLoop f (n % 128) w).1.va = w.va ∧
    ∃ q, n ≤ q ∧ q ≤ s ∧ (UlWin.moveLoop f (n % 128) w).2 = q - n ∧
      (∀ m, n ≤ m → m < q → w.vb (m % 128) = .acked) ∧ (q < s → w.vb (q % 128) ≠ .acked) ∧
      (∀ i, (∀ m, n ≤ m → m < q → i ≠ m % 128) → (UlWin.moveLoop f (n % 128) w).1.vb i = w.vb i) := by
  induction f with
  | zero => intro n s w _ _ _ h; omega
  | succ f ih =>
    intro n s w hs h1 h2 h3
    by_cases he : n = s
    · subst he
      have : UlWin.moveLoop (f + 1) (n % 128) w = (w, 0) := by simp [UlWin.moveLoop, hs]
      rw [this]
      exact ⟨rfl, rfl, n, by omega, by omega, by simp, fun m _ _ => by omega, fun h => by omega, fun _ _ => rfl⟩
    · have hne : n % 128 ≠ w.vs := by rw [hs]; omega
      by_cases hu : w.vb (n % 128) = .acked
      · have hstep : UlWin.moveLoop (f + 1) (n % 128) w =
            ((UlWin.moveLoop f ((n + 1) % 128) (w.mark (n % 128) .invalid)).1,
             (UlWin.moveLoop f ((n + 1) % 128) (w.mark (n % 128) .invalid)).2 + 1) := by
          simp only [UlWin.moveLoop, hne, if_false, state_mod, modSns_succ, hu, ne_eq, not_true_eq_false]
        rw [hstep]
        obtain ⟨a, b, q, c1, c2, c3, c4, c5, c6⟩ :=
          ih (n + 1) s (w.mark (n % 128) .invalid) hs (by omega) (by omega) (by omega)
        refine ⟨a, b, q, by omega, c2, by simp only [c3]; omega, fun m hm1 hm2 => ?_, fun h => ?_, fun i hi => ?_⟩
        · by_cases hmn : m = n
          · rw [hmn]; exact hu
          · have := c4 m (by omega) hm2
            have hd : m % 128 ≠ n % 128 := by omega
            simpa [UlWin.mark, idx_mod, upd_apply, hd] using this
        · have := c5 h
          have hd : q % 128 ≠ n % 128 := by omega
          simpa [UlWin.mark, idx_mod, upd_apply, hd] using this
        · have := c6 i (fun m hm1 hm2 => hi m (by omega) hm2)
          have hd : i ≠ n % 128 := hi n (by omega) (by omega)
          simpa [UlWin.mark, idx_mod, upd_apply, hd] using this
      · have : UlWin.moveLoop (f + 1) (n % 128) w = (w, 0) := by
          simp only [UlWin.moveLoop, hne, if_false, state_mod]
          rw [if_pos hu]
        rw [this]
        exact ⟨rfl, rfl, n, by omega, by omega, by simp, fun m _ _ => by omega, fun _ => hu, fun _ _ => rfl⟩

theorem updateLoop_spec (l : List Bool) : ∀ (a j b : Nat) (w : UlWin), w.va = a % 128 → b % 128 = (a + j) % 128 →
    j + l.length ≤ 127 →
    (UlWin.updateLoop l b w).vs = w.vs ∧ (UlWin.updateLoop l b w).va = w.va ∧
    (∀ k, k < l.length → (UlWin.updateLoop l b w).vb ((a + j + k) % 128) =
      if l.getD k false then .acked else .nacked) ∧
    (∀ i, (∀ k, k < l.length → i ≠ (a + j + k) % 128) → (UlWin.updateLoop l b w).vb i = w.vb i) := by
  induction l with
  | nil => intro a j b w _ _ _; exact ⟨rfl, rfl, fun k h => by simp at h, fun _ _ => rfl⟩
  | cons x l ih =>
    intro a j b w ha hb hl
    simp only [List.length_cons] at hl
    have hne : modSns b ≠ modSns (sub16 w.va 1) := by
      simp only [modSns_eq, sub16, ha]; omega
    simp only [UlWin.updateLoop, hne, if_false]
    have hm : modSns b = (a + j) % 128 := by rw [modSns_eq, hb]
    rw [hm]
    obtain ⟨c1, c2, c3, c4⟩ := ih a (j + 1) (b + 1)
      (w.mark ((a + j) % 128) (if x = true then .acked else .nacked)) ha (by omega) (by omega)
    refine ⟨c1, c2, fun k hk => ?_, fun i hi => ?_⟩
    · rcases k with _ | k
      · rw [c4 _ (fun k hk => by omega)]
        simp [UlWin.mark, idx_mod]
      · have := c3 k (by simpa using hk)
        have e : a + j + (k + 1) = a + (j + 1) + k := by omega
        rw [e, this]
        simp
    · rw [c4 i (fun k hk => by
        have := hi (k + 1) (by simpa using hk)
        have e : a + (j + 1) + k = a + j + (k + 1) := by omega
        rwa [e])]
      have := hi 0 (by simp)
      simp only [Nat.add_zero] at this
      simp [UlWin.mark, idx_mod, upd_apply, this]

end Verif.Rlc
