import Verif.Spec.RlcDl

/-!
# Lemmas about the RLC downlink window (proof devices)
-/
namespace Verif.Rlc

open Verif.Spec

theorem raiseVrLoop_spec (k : Nat) : ∀ (r : Nat) (w : DlWin), w.vr = r % 128 →
    (w.raiseVrLoop k).vr = (r + k) % 128 ∧ (w.raiseVrLoop k).vq = w.vq ∧
    ∀ i, ((w.raiseVrLoop k).vn i = .received ↔ w.vn i = .received ∧
      (∀ m, r ≤ m → m < r + k → i ≠ (m + 64) % 128) ∧
      (∀ m, r ≤ m → m + 1 < r + k → i ≠ m % 128)) := by
  induction k with
  | zero =>
    intro r w h
    refine ⟨by simpa [DlWin.raiseVrLoop] using h, rfl, fun i => ?_⟩
    constructor
    · intro hr; exact ⟨hr, fun m h1 h2 => by omega, fun m h1 h2 => by omega⟩
    · intro hr; exact hr.1
  | succ k ih =>
    intro r w h
    have e1 : idx (modSns (sub16 w.vr ws)) = (r + 64) % 128 := by
      simp only [idx_eq, modSns_eq, sub16, ws, h]; omega
    have e2 : idx w.vr = r % 128 := by rw [idx_eq, h]; omega
    have e3 : modSns (w.vr + 1) = (r + 1) % 128 := by rw [modSns_eq, h]; omega
    simp only [DlWin.raiseVrLoop]
    by_cases hk : k = 0
    · subst hk
      simp only [DlWin.raiseVrLoop, ne_eq, not_true_eq_false, if_false, DlWin.mark, e1, upd_apply]
      refine ⟨by rw [e3], trivial, fun i => ?_⟩
      by_cases hi : i = (r + 64) % 128
      · simp only [hi, if_true]
        constructor
        · intro hx; cases hx
        · intro hx; exact absurd rfl (hx.2.1 r (by omega) (by omega))
      · simp only [hi, if_false]
        constructor
        · intro hx
          exact ⟨hx, fun m h1 h2 => by have : m = r := by omega
                                       rw [this]; exact hi, fun m h1 h2 => by omega⟩
        · intro hx; exact hx.1
    · simp only [ne_eq, hk, not_false_eq_true, if_true]
      have := ih (r + 1) { ((w.mark (modSns (sub16 w.vr ws)) .invalid).mark w.vr .missing) with
        vr := modSns (w.vr + 1) } e3
      obtain ⟨a, b, c⟩ := this
      refine ⟨by rw [a]; omega, b, fun i => ?_⟩
      rw [c i]
      simp only [DlWin.mark, e1, e2, upd_apply]
      constructor
      · rintro ⟨h1, h2, h3⟩
        by_cases hi1 : i = r % 128
        · simp [hi1] at h1
        · by_cases hi2 : i = (r + 64) % 128
          · rw [if_neg hi1, if_pos hi2] at h1
            cases h1
          · simp only [hi1, hi2, if_false] at h1
            refine ⟨h1, fun m hm1 hm2 => ?_, fun m hm1 hm2 => ?_⟩
            · by_cases hmr : m = r
              · rw [hmr]; exact hi2
              · exact h2 m (by omega) (by omega)
            · by_cases hmr : m = r
              · rw [hmr]; exact hi1
              · exact h3 m (by omega) (by omega)
      · rintro ⟨h1, h2, h3⟩
        refine ⟨?_, fun m hm1 hm2 => h2 m (by omega) (by omega), fun m hm1 hm2 => h3 m (by omega) (by omega)⟩
        rw [if_neg (h3 r (by omega) (by omega)), if_neg (h2 r (by omega) (by omega))]
        exact h1

/-- `raise_v_q` takes out the blocks up to the first one not received, or up to V(R). -/
theorem raiseVqLoop_spec (f : Nat) : ∀ (q r : Nat) (w : DlWin), w.vq = q % 128 → w.vr = r % 128 →
    q ≤ r → r ≤ q + 127 → r - q < f →
    ∃ q', q ≤ q' ∧ q' ≤ r ∧ (w.raiseVqLoop f).2 = q' - q ∧
      (w.raiseVqLoop f).1 = { w with vq := q' % 128 } ∧
      (∀ n, q ≤ n → n < q' → w.vn (n % 128) = .received) ∧
      (q' = r ∨ w.vn (q' % 128) ≠ .received) := by
  induction f with
  | zero => intro q r w _ _ _ _ h; omega
  | succ f ih =>
    intro q r w hq hr hqr hb hf
    simp only [DlWin.raiseVqLoop]
    by_cases he : w.vq = w.vr
    · rw [if_pos he]
      have : q = r := by rw [hq, hr] at he; omega
      subst this
      exact ⟨q, by omega, by omega, by simp, by simp [← hq], fun n h1 h2 => by omega, Or.inl rfl⟩
    · rw [if_neg he]
      have hne : q ≠ r := fun e => he (by rw [hq, hr, e])
      have e2 : idx w.vq = q % 128 := by rw [idx_eq, hq]; omega
      have e3 : modSns (w.vq + 1) = (q + 1) % 128 := by rw [modSns_eq, hq]; omega
      by_cases hrc : w.isReceivedVn w.vq = true
      · rw [if_pos hrc]
        obtain ⟨q', h1, h2, h3, h4, h5, h6⟩ :=
          ih (q + 1) r { w with vq := modSns (w.vq + 1) } e3 hr (by omega) (by omega) (by omega)
        refine ⟨q', by omega, h2, ?_, ?_, ?_, h6⟩
        · simp only [h3]; omega
        · simp only [h4]
        · intro n hn1 hn2
          by_cases hn : n = q
          · subst hn
            simpa [DlWin.isReceivedVn, e2] using hrc
          · exact h5 n (by omega) hn2
      · rw [if_neg hrc]
        refine ⟨q, by omega, hqr, by simp, by simp [← hq], fun n h1 h2 => by omega, Or.inr ?_⟩
        simpa [DlWin.isReceivedVn, e2] using hrc

/-- What is always true of the window (proof device): `h` are the numbers that have arrived, `q`/`r` the
absolute values of V(Q) and V(R). -/
structure Sound (h : List Nat) (q r : Nat) (w : DlWin) : Prop where
  qr : q ≤ r
  rq : r ≤ q + 64
  vq : w.vq = q % 128
  vr : w.vr = r % 128
  low : ∀ n, n < q → n ∈ h
  gap : q = r ∨ w.vn (q % 128) ≠ .received
  rcvd : ∀ n, n < r + 64 → r ≤ n + 64 → w.vn (n % 128) = .received → n ∈ h
  unused : ∀ j, r + 64 ≤ j → j < 128 → w.vn j ≠ .received

theorem Sound.init : Sound [] 0 0 DlWin.init where
  qr := by omega
  rq := by omega
  vq := rfl
  vr := rfl
  low := by intro n h; omega
  gap := Or.inl rfl
  rcvd := by intro n _ _ h; cases h
  unused := by intro j _ _ h; cases h

theorem isInWindow_iff {w : DlWin} {q n : Nat} (hq : w.vq = q % 128) (h1 : n < q + 64) (h2 : q ≤ n + 64) :
    w.isInWindow (n % 128) = true ↔ q ≤ n := by
  simp only [DlWin.isInWindow, modSns_eq, sub16, ws, hq, decide_eq_true_eq]
  omega

theorem isReceivedVn_iff {w : DlWin} (n : Nat) : w.isReceivedVn (n % 128) = true ↔ w.vn (n % 128) = .received := by
  have : idx (n % 128) = n % 128 := by rw [idx_eq]; omega
  simp [DlWin.isReceivedVn, this]

/-- V(Q) and V(R) after `receive_bsn` (proof device), together with the receive states. -/
theorem receiveBsn_spec {h : List Nat} {q r : Nat} {w : DlWin} (s : Sound h q r w) {n : Nat}
    (h1 : n < q + 64) (h2 : q ≤ n) :
    ∃ r', (w.receiveBsn (n % 128)).vr = r' % 128 ∧ (w.receiveBsn (n % 128)).vq = w.vq ∧
      r' = (if r ≤ n ∧ n < r + 63 then n + 1 else r) ∧
      ∀ i, ((w.receiveBsn (n % 128)).vn i = .received ↔ (i = n % 128 ∨ w.vn i = .received) ∧
        (∀ m, r ≤ m → m < r' → i ≠ (m + 64) % 128) ∧ (∀ m, r ≤ m → m + 1 < r' → i ≠ m % 128)) := by
  have hidx : idx (n % 128) = n % 128 := by rw [idx_eq]; omega
  have hm : ∀ i, ((w.mark (n % 128) .received).vn i = .received ↔ (i = n % 128 ∨ w.vn i = .received)) := by
    intro i
    simp only [DlWin.mark, hidx, upd_apply]
    by_cases hi : i = n % 128
    · simp [hi]
    · simp [hi]
  have hvr : (w.mark (n % 128) .received).vr = r % 128 := s.vr
  simp only [DlWin.receiveBsn, DlWin.raiseVr]
  have hoff : modSns (sub16 (n % 128 + 1) (w.mark (n % 128) .received).vr) = (n + 1 + 128 - r) % 128 := by
    simp only [modSns_eq, sub16, hvr]
    have := s.rq
    omega
  rw [hoff]
  have hs : sns / 2 = 64 := rfl
  rw [hs]
  by_cases hc : r ≤ n ∧ n < r + 63
  · rw [if_pos (by omega : (n + 1 + 128 - r) % 128 < 64), if_pos hc]
    have hk : (n + 1 + 128 - r) % 128 = n + 1 - r := by omega
    rw [hk]
    obtain ⟨a, b, c⟩ := raiseVrLoop_spec (n + 1 - r) r (w.mark (n % 128) .received) hvr
    have he : r + (n + 1 - r) = n + 1 := by omega
    rw [he] at a c
    refine ⟨n + 1, a, b, rfl, fun i => ?_⟩
    rw [c i, hm i]
  · rw [if_neg hc]
    have : ∀ w', w' = w.mark (n % 128) .received →
        w'.vr = r % 128 ∧ w'.vq = w.vq ∧ ∀ i, (w'.vn i = .received ↔ (i = n % 128 ∨ w.vn i = .received) ∧
        (∀ m, r ≤ m → m < r → i ≠ (m + 64) % 128) ∧ (∀ m, r ≤ m → m + 1 < r → i ≠ m % 128)) := by
      intro w' e
      subst e
      refine ⟨hvr, rfl, fun i => ?_⟩
      rw [hm i]
      constructor
      · intro hx; exact ⟨hx, fun m _ _ => by omega, fun m _ _ => by omega⟩
      · intro hx; exact hx.1
    by_cases ho : (n + 1 + 128 - r) % 128 < 64
    · rw [if_pos ho]
      have hk : (n + 1 + 128 - r) % 128 = 0 := by have := s.rq; have := s.qr; omega
      rw [hk]
      obtain ⟨a, b, c⟩ := this _ rfl
      exact ⟨r, a, b, rfl, c⟩
    · rw [if_neg ho]
      obtain ⟨a, b, c⟩ := this _ rfl
      exact ⟨r, a, b, rfl, c⟩

/-- One block arrives: the window stays sound; V(Q) rises by the number of blocks taken out. -/
theorem Sound.rcv {h : List Nat} {q r : Nat} {w : DlWin} (s : Sound h q r w) {n : Nat}
    (h1 : n < q + 64) (h2 : q ≤ n + 64) :
    ∃ r', Sound (h ++ [n]) (q + (w.rcv (n % 128)).2) r' (w.rcv (n % 128)).1 ∧ r ≤ r' ∧
      (∀ m, q ≤ m → m < q + (w.rcv (n % 128)).2 → m = n ∨ w.vn (m % 128) = .received) ∧
      (∀ m, m < r' + 64 → r' ≤ m + 64 → (w.rcv (n % 128)).1.vn (m % 128) = .received →
        m = n ∨ (m < r + 64 ∧ w.vn (m % 128) = .received)) := by
  have hqr := s.qr
  have hrq := s.rq
  -- nothing stored
  have quiet : ∃ r', Sound (h ++ [n]) (q + w.raiseVq.2) r' w.raiseVq.1 ∧ r ≤ r' ∧
      (∀ m, q ≤ m → m < q + w.raiseVq.2 → m = n ∨ w.vn (m % 128) = .received) ∧
      (∀ m, m < r' + 64 → r' ≤ m + 64 → w.raiseVq.1.vn (m % 128) = .received →
        m = n ∨ (m < r + 64 ∧ w.vn (m % 128) = .received)) := by
    obtain ⟨q', a1, a2, a3, a4, a5, a6⟩ := raiseVqLoop_spec sns q r w s.vq s.vr hqr (by omega) (by simp [sns]; omega)
    have hq' : q' = q := by
      rcases s.gap with e | e
      · omega
      · by_cases hqq : q' = q
        · exact hqq
        · exact absurd (a5 q (by omega) (by omega)) e
    subst hq'
    simp only [DlWin.raiseVq, a3, Nat.sub_self, Nat.add_zero, a4]
    refine ⟨r, ⟨hqr, hrq, rfl, s.vr, fun n hn => List.mem_append_left _ (s.low n hn), s.gap,
      fun m h3 h4 h5 => List.mem_append_left _ (s.rcvd m h3 h4 h5), s.unused⟩, Nat.le_refl _, fun m _ _ => by omega,
      fun m h3 _ h5 => Or.inr ⟨h3, h5⟩⟩
  by_cases hin : q ≤ n
  · by_cases hrec : w.vn (n % 128) = .received
    · have e : w.rcv (n % 128) = w.raiseVq := by
        simp only [DlWin.rcv, (isInWindow_iff s.vq h1 h2).2 hin, (isReceivedVn_iff n).2 hrec, not_true_eq_false,
          if_false, if_true]
      rw [e]; exact quiet
    · have e : w.rcv (n % 128) = (w.receiveBsn (n % 128)).raiseVq := by
        have : w.isReceivedVn (n % 128) ≠ true := fun hh => hrec ((isReceivedVn_iff n).1 hh)
        simp only [DlWin.rcv, (isInWindow_iff s.vq h1 h2).2 hin, not_true_eq_false, if_false, this, Bool.false_eq_true]
      rw [e]
      obtain ⟨r', b1, b2, b3, b4⟩ := receiveBsn_spec s h1 hin
      generalize w.receiveBsn (n % 128) = w1 at b1 b2 b4
      have hr' : r ≤ r' ∧ r' ≤ q + 64 ∧ r' ≤ r + 63 := by
        rw [b3]; split <;> omega
      obtain ⟨q', a1, a2, a3, a4, a5, a6⟩ := raiseVqLoop_spec sns q r' w1 (b2.trans s.vq) b1 (by omega) (by omega)
        (by simp [sns]; omega)
      simp only [DlWin.raiseVq, a3, a4]
      have hqe : q + (q' - q) = q' := by omega
      rw [hqe]
      -- received states of w1 refer to numbers that arrived
      have key : ∀ m, m < r' + 64 → r' ≤ m + 64 → w1.vn (m % 128) = .received → m = n ∨ (m < r + 64 ∧ w.vn (m % 128) = .received) := by
        intro m hm1 hm2 hm3
        obtain ⟨c1, c2, c3⟩ := (b4 (m % 128)).1 hm3
        by_cases hmr : m < r + 64
        · rcases c1 with c1 | c1
          · -- same residue as n
            left
            by_cases hx : r ≤ n ∧ n < r + 63
            · rw [if_pos hx] at b3; omega
            · rw [if_neg hx] at b3; omega
          · exact Or.inr ⟨hmr, c1⟩
        · -- the mark of m was invalidated when V(R) passed m - 64
          exact absurd (by omega) (c2 (m - 64) (by omega) (by omega))
      refine ⟨r', ⟨a2, by omega, rfl, b1, ?_, ?_, ?_, ?_⟩, hr'.1, ?_, key⟩
      · intro m hm
        by_cases hmq : m < q
        · exact List.mem_append_left _ (s.low m hmq)
        · rcases key m (by omega) (by omega) (a5 m (by omega) hm) with e | ⟨e1, e2⟩
          · simp [e]
          · exact List.mem_append_left _ (s.rcvd m e1 (by omega) e2)
      · exact a6
      · intro m hm1 hm2 hm3
        rcases key m hm1 hm2 hm3 with e | ⟨e1, e2⟩
        · simp [e]
        · exact List.mem_append_left _ (s.rcvd m e1 (by omega) e2)
      · intro j hj1 hj2 hj3
        obtain ⟨c1, c2, c3⟩ := (b4 j).1 hj3
        rcases c1 with c1 | c1
        · rw [c1] at hj1
          by_cases hx : r ≤ n ∧ n < r + 63
          · rw [if_pos hx] at b3; omega
          · rw [if_neg hx] at b3; omega
        · exact s.unused j (by omega) hj2 c1
      · intro m hm1 hm2
        rcases key m (by omega) (by omega) (a5 m hm1 hm2) with e | ⟨_, e2⟩
        · exact Or.inl e
        · exact Or.inr e2
  · have e : w.rcv (n % 128) = w.raiseVq := by
      have : w.isInWindow (n % 128) ≠ true := fun hh => hin ((isInWindow_iff s.vq h1 h2).1 hh)
      simp only [DlWin.rcv, this, not_false_eq_true, if_true, Bool.false_eq_true]
    rw [e]; exact quiet

theorem Sound.raiseVq_quiet {h : List Nat} {q r : Nat} {w : DlWin} (s : Sound h q r w) : w.raiseVq = (w, 0) := by
  have hqr := s.qr
  have hrq := s.rq
  obtain ⟨q', a1, a2, a3, a4, a5, a6⟩ := raiseVqLoop_spec sns q r w s.vq s.vr hqr (by omega) (by simp [sns]; omega)
  have hq' : q' = q := by
    rcases s.gap with e | e
    · omega
    · by_cases hqq : q' = q
      · exact hqq
      · exact absurd (a5 q (by omega) (by omega)) e
  subst hq'
  have : w.raiseVq = ((w.raiseVqLoop sns).1, (w.raiseVqLoop sns).2) := rfl
  rw [this, a3, a4, ← s.vq, Nat.sub_self]

/-- What is true of the window as long as no block arrives 63 or more above V(R) (proof device). -/
structure Complete (h : List Nat) (q r : Nat) (w : DlWin) : Prop extends Sound h q r w where
  top : OneAboveHighest h r
  miss : q ∉ h
  all : ∀ n ∈ h, r ≤ n + 64 → w.vn (n % 128) = .received

theorem Complete.init : Complete [] 0 0 DlWin.init :=
  { Sound.init with
    top := ⟨by simp, Or.inl rfl⟩
    miss := by simp
    all := by simp }

theorem Complete.rcv {h : List Nat} {q r : Nat} {w : DlWin} (s : Complete h q r w) {n : Nat}
    (h1 : n < q + 64) (h2 : q ≤ n + 64) (h3 : n < r + 63) :
    ∃ q' r', Complete (h ++ [n]) q' r' (w.rcv (n % 128)).1 := by
  have hqr := s.qr
  have hrq := s.rq
  -- nothing stored
  have quiet : n ∈ h → Complete (h ++ [n]) q r w := by
    intro hn
    exact { qr := hqr, rq := hrq, vq := s.vq, vr := s.vr,
            low := fun m hm => List.mem_append_left _ (s.low m hm)
            gap := s.gap
            rcvd := fun m a b c => List.mem_append_left _ (s.rcvd m a b c)
            unused := s.unused
            top := ⟨fun m hm => by
                      rcases List.mem_append.1 hm with hm | hm
                      · exact s.top.1 m hm
                      · exact s.top.1 m (by simp at hm; rw [hm]; exact hn),
                    s.top.2.imp id (fun x => List.mem_append_left _ x)⟩
            miss := fun hm => by
              rcases List.mem_append.1 hm with hm | hm
              · exact s.miss hm
              · exact s.miss (by simp at hm; rw [hm]; exact hn)
            all := fun m hm => by
              rcases List.mem_append.1 hm with hm | hm
              · exact s.all m hm
              · exact s.all m (by simp at hm; rw [hm]; exact hn) }
  by_cases hin : q ≤ n
  · by_cases hrec : w.vn (n % 128) = .received
    · have e : w.rcv (n % 128) = w.raiseVq := by
        simp only [DlWin.rcv, (isInWindow_iff s.vq h1 h2).2 hin, (isReceivedVn_iff n).2 hrec, not_true_eq_false,
          if_false, if_true]
      rw [e, s.toSound.raiseVq_quiet]
      exact ⟨q, r, quiet (s.rcvd n (by omega) (by omega) hrec)⟩
    · have e : w.rcv (n % 128) = (w.receiveBsn (n % 128)).raiseVq := by
        have : w.isReceivedVn (n % 128) ≠ true := fun hh => hrec ((isReceivedVn_iff n).1 hh)
        simp only [DlWin.rcv, (isInWindow_iff s.vq h1 h2).2 hin, not_true_eq_false, if_false, this,
          Bool.false_eq_true]
      obtain ⟨r1, sd, _, _, _⟩ := s.toSound.rcv h1 h2
      rw [e] at sd ⊢
      obtain ⟨r', b1, b2, b3, b4⟩ := receiveBsn_spec s.toSound h1 hin
      have b3' : r' = if r ≤ n then n + 1 else r := by
        rw [b3]
        by_cases hc : r ≤ n
        · rw [if_pos ⟨hc, h3⟩, if_pos hc]
        · rw [if_neg (fun x => hc x.1), if_neg hc]
      generalize w.receiveBsn (n % 128) = w1 at b1 b2 b4 sd
      have hr' : r ≤ r' ∧ r' ≤ q + 64 ∧ n < r' := by
        rw [b3']; split <;> omega
      obtain ⟨q', a1, a2, a3, a4, a5, a6⟩ := raiseVqLoop_spec sns q r' w1 (b2.trans s.vq) b1 (by omega) (by omega)
        (by simp [sns]; omega)
      have hq' : q + w1.raiseVq.2 = q' := by
        show q + (w1.raiseVqLoop sns).2 = q'
        omega
      have hw : w1.raiseVq.1 = { w1 with vq := q' % 128 } := a4
      rw [hq'] at sd
      have hrr : r1 = r' := by
        have e1 : w1.vr = r1 % 128 := by have := sd.vr; rw [hw] at this; exact this
        have e2 := sd.qr
        have e3 := sd.rq
        omega
      subst hrr
      have hall : ∀ m ∈ h ++ [n], r1 ≤ m + 64 → w1.vn (m % 128) = .received := by
        intro m hm hm64
        have hmr : m < r1 := by
          rcases List.mem_append.1 hm with hm | hm
          · have := s.top.1 m hm; omega
          · simp at hm; omega
        rw [b4]
        refine ⟨?_, ?_, ?_⟩
        · rcases List.mem_append.1 hm with hm | hm
          · exact Or.inr (s.all m hm (by omega))
          · simp at hm; exact Or.inl (by rw [hm])
        · intro m' g1 g2 g3
          have hr3 : r1 ≤ r + 63 := by rw [b3']; split <;> omega
          omega
        · intro m' g1 g2 g3
          have hr3 : r1 ≤ r + 63 := by rw [b3']; split <;> omega
          have : m = m' := by omega
          subst this
          rcases List.mem_append.1 hm with hm | hm
          · have := s.top.1 m hm; omega
          · simp at hm
            rw [b3'] at g2
            split at g2 <;> omega
      refine ⟨q', r1, { sd with
        top := ⟨fun m hm => by
                  rcases List.mem_append.1 hm with hm | hm
                  · have := s.top.1 m hm; omega
                  · simp at hm; omega, ?_⟩
        miss := ?_
        all := ?_ }⟩
      · by_cases hc : r ≤ n
        · rw [if_pos hc] at b3'
          right
          rw [b3']
          simp
        · rw [if_neg hc] at b3'
          subst b3'
          exact s.top.2.imp id (fun x => List.mem_append_left _ x)
      · intro hm
        have hlt : q' < r1 := by
          rcases List.mem_append.1 hm with hm | hm
          · have := s.top.1 _ hm; omega
          · simp at hm; omega
        rcases a6 with a6 | a6
        · omega
        · exact a6 (hall q' hm (by omega))
      · rw [hw]
        exact hall
  · have e : w.rcv (n % 128) = w.raiseVq := by
      have : w.isInWindow (n % 128) ≠ true := fun hh => hin ((isInWindow_iff s.vq h1 h2).1 hh)
      simp only [DlWin.rcv, this, not_false_eq_true, if_true, Bool.false_eq_true]
    rw [e, s.toSound.raiseVq_quiet]
    exact ⟨q, r, quiet (s.low n (by omega))⟩

end Verif.Rlc
