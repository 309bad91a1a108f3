import Verif.Rlc.WindowUlLemmas

/-!
# The uplink window follows the observer's notes (proof devices)
-/
namespace Verif.Rlc

open Verif.Spec

theorem base_eq (h : UlNotes) (b : Nat) (hb : b ≤ h.sent) (h1 : ∀ n, n < b → h.news n = .acked)
    (h2 : b < h.sent → h.news b ≠ .acked) : h.base = b := by
  obtain ⟨c, hc⟩ : ∃ c, h.sent = b + c := ⟨h.sent - b, by omega⟩
  unfold UlNotes.base
  rw [hc, List.range_add, List.takeWhile_append_of_pos (by intro n hn; simpa using h1 n (by simpa using hn))]
  rcases c with _ | c
  · simp
  · have : h.news b ≠ .acked := h2 (by omega)
    rw [List.range_succ_eq_map]
    simp [this]

theorem base_spec (h : UlNotes) : h.base ≤ h.sent ∧ (∀ n, n < h.base → h.news n = .acked) ∧
    (h.base < h.sent → h.news h.base ≠ .acked) := by
  have key : ∀ s, ∃ b, b ≤ s ∧ (∀ n, n < b → h.news n = .acked) ∧ (b < s → h.news b ≠ .acked) := by
    intro s
    induction s with
    | zero => exact ⟨0, by omega, fun n hn => by omega, fun hn => by omega⟩
    | succ s ih =>
      obtain ⟨b, h1, h2, h3⟩ := ih
      by_cases hb : b < s
      · exact ⟨b, by omega, h2, fun _ => h3 hb⟩
      · have : b = s := by omega
        subst this
        by_cases ha : h.news b = .acked
        · refine ⟨b + 1, by omega, fun n hn => ?_, fun hn => by omega⟩
          by_cases e : n = b
          · rw [e]; exact ha
          · exact h2 n (by omega)
        · exact ⟨b, by omega, h2, fun _ => ha⟩
  obtain ⟨b, h1, h2, h3⟩ := key h.sent
  rw [base_eq h b h1 h2 h3]
  exact ⟨h1, h2, h3⟩

/-- The state of a block in the window and the latest news about it. -/
def Agrees : UlState → News → Prop
  | .unacked, .sent => True
  | .resend, .sent => True
  | .nacked, .missing => True
  | .acked, .acked => True
  | _, _ => False

theorem Agrees.acked_iff {s : UlState} {x : News} (h : Agrees s x) : s = .acked ↔ x = .acked := by
  cases s <;> cases x <;> simp_all [Agrees]

theorem Agrees.missing_iff {s : UlState} {x : News} (h : Agrees s x) : s = .nacked ↔ x = .missing := by
  cases s <;> cases x <;> simp_all [Agrees]

structure UlInv (w : UlWin) (h : UlNotes) : Prop where
  va : w.va = h.base % 128
  vs : w.vs = h.sent % 128
  le : h.sent ≤ h.base + 64
  agrees : ∀ n, h.base ≤ n → n < h.sent → Agrees (w.vb (n % 128)) (h.news n)

theorem UlInv.init : UlInv UlWin.init UlNotes.init :=
  ⟨rfl, rfl, by simp [UlNotes.init], fun n _ h => by simp [UlNotes.init] at h⟩

theorem UlInv.stalled {w : UlWin} {h : UlNotes} (i : UlInv w h) : w.stalled = true ↔ h.sent = h.base + 64 := by
  have := (base_spec h).1
  have := i.le
  simp only [UlWin.stalled, modSns_eq, sub16, i.va, i.vs, ws, beq_iff_eq]
  omega

theorem UlInv.empty {w : UlWin} {h : UlNotes} (i : UlInv w h) : w.empty = true ↔ h.sent = h.base := by
  have := (base_spec h).1
  have := i.le
  simp only [UlWin.empty, i.va, i.vs, beq_iff_eq]
  omega

theorem UlInv.distance {w : UlWin} {h : UlNotes} (i : UlInv w h) : w.distance = h.sent - h.base := by
  have := (base_spec h).1
  have := i.le
  simp only [UlWin.distance, modSns_eq, sub16, i.va, i.vs]
  omega

theorem UlInv.resendNeeded {w : UlWin} {h : UlNotes} (i : UlInv w h) :
    (w.resendNeeded = none ∧ ∀ m, h.base ≤ m → m < h.sent → ¬ w.need m) ∨
    ∃ m, h.base ≤ m ∧ m < h.sent ∧ w.resendNeeded = some (m % 128) ∧ w.need m ∧
      ∀ k, h.base ≤ k → k < m → ¬ w.need k := by
  have h1 := (base_spec h).1
  have h2 := i.le
  have := resendLoop_spec w h.sent i.vs 128 h.base h1 (by omega) (by omega)
  unfold UlWin.resendNeeded
  rw [i.va]
  exact this

/-- Blocks of a window of 64 have different array entries. -/
theorem mod_ne {a n m : Nat} (h1 : a ≤ n) (h2 : n < a + 64) (h3 : a ≤ m) (h4 : m < a + 64) (h : n ≠ m) :
    n % 128 ≠ m % 128 := by omega

theorem blockOf_eq (h : UlNotes) (m : Nat) (h1 : h.base ≤ m) (h2 : m < h.base + 64) :
    h.blockOf (m % 128) = m := by unfold UlNotes.blockOf; omega

/-- Retransmission of the first block that needs it keeps the invariant. -/
theorem UlInv.retransmit {w : UlWin} {h : UlNotes} (i : UlInv w h) (c : UlTxCtx) (m : Nat) (h1 : h.base ≤ m)
    (h2 : m < h.sent) (hn : w.need m) :
    UlInv (w.mark (m % 128) .unacked) (h.note (.rts c) (some (m % 128, .retransmit))) ∧
    (h.note (.rts c) (some (m % 128, .retransmit))).base = h.base := by
  have hle := i.le
  have hb := base_spec h
  have hag := i.agrees m h1 h2
  have hna : h.news m ≠ .acked := by
    intro he
    rw [← hag.acked_iff] at he
    rcases hn with hn | hn <;> rw [hn] at he <;> cases he
  have hbase : (h.note (.rts c) (some (m % 128, .retransmit))).base = h.base := by
    apply base_eq
    · exact hb.1
    · intro n hn
      simp only [UlNotes.note, blockOf_eq h m h1 (by omega)]
      rw [if_neg (by omega)]
      exact hb.2.1 n hn
    · intro hlt
      simp only [UlNotes.note, blockOf_eq h m h1 (by omega)]
      by_cases e : h.base = m
      · rw [if_pos e]; exact nofun
      · rw [if_neg e]; exact hb.2.2 hlt
  refine ⟨⟨by rw [hbase]; exact i.va, i.vs, by rw [hbase]; exact hle, ?_⟩, hbase⟩
  rw [hbase]
  intro n hn1 hn2
  have hn2' : n < h.sent := hn2
  simp only [UlNotes.note, blockOf_eq h m h1 (by omega), UlWin.mark, idx_mod, upd_apply]
  by_cases e : n = m
  · simp [e, Agrees]
  · rw [if_neg e, if_neg (mod_ne hn1 (by omega) h1 (by omega) e)]
    exact i.agrees n hn1 hn2'

/-- Sending a new block keeps the invariant. -/
theorem UlInv.new {w : UlWin} {h : UlNotes} (i : UlInv w h) (c : UlTxCtx) (b : Nat) (hs : h.sent < h.base + 64) :
    UlInv w.newTx.1 (h.note (.rts c) (some (b, .new))) ∧ w.newTx.2 = (h.sent % 128, .new) ∧
    (h.note (.rts c) (some (b, .new))).base = h.base := by
  have hb := base_spec h
  have hbase : (h.note (.rts c) (some (b, .new))).base = h.base := by
    apply base_eq
    · show h.base ≤ h.sent + 1
      omega
    · intro n hn
      simp only [UlNotes.note]
      rw [if_neg (by omega)]
      exact hb.2.1 n hn
    · intro _
      simp only [UlNotes.note]
      by_cases e : h.base = h.sent
      · rw [if_pos e]; exact nofun
      · rw [if_neg e]; exact hb.2.2 (by omega)
  refine ⟨⟨by rw [hbase]; exact i.va, ?_, by rw [hbase]; show h.sent + 1 ≤ _; omega, ?_⟩, by simp [UlWin.newTx, i.vs], hbase⟩
  · show modSns (w.vs + 1) = (h.sent + 1) % 128
    rw [i.vs, modSns_succ]
  · rw [hbase]
    intro n hn1 hn2
    have hn2' : n < h.sent + 1 := hn2
    simp only [UlNotes.note, UlWin.newTx, UlWin.incrementSend, UlWin.mark, i.vs, idx_mod, upd_apply]
    by_cases e : n = h.sent
    · simp [e, Agrees]
    · rw [if_neg e, if_neg (mod_ne hn1 (by omega) (by omega) (by omega) e)]
      exact i.agrees n hn1 (by omega)

/-- `restart_bsn_cycle`, when nothing is waiting for retransmission. -/
theorem UlInv.restart {w : UlWin} {h : UlNotes} (i : UlInv w h)
    (hno : ∀ m, h.base ≤ m → m < h.sent → ¬ w.need m) :
    (h.sent = h.base ∧ w.restartCycle = (w, false)) ∨
    (h.base < h.sent ∧ ∃ w', w.restartCycle = (w', true) ∧ UlInv w' h ∧ w'.need h.base) := by
  have hb := base_spec h
  have hle := i.le
  by_cases he : w.empty = true
  · left
    exact ⟨i.empty.mp he, by simp [UlWin.restartCycle, he]⟩
  · right
    have hlt : h.base < h.sent := by
      have : h.sent ≠ h.base := fun hx => he (i.empty.mpr hx)
      omega
    have hun : w.vb (h.base % 128) = .unacked := by
      have hag := i.agrees h.base (by omega) hlt
      have hnn := hno h.base (by omega) hlt
      have hna := hb.2.2 hlt
      revert hag hna hnn
      unfold UlWin.need
      cases w.vb (h.base % 128) <;> cases h.news h.base <;> simp [Agrees]
    obtain ⟨a, b, c, d, e⟩ := markResendLoop_spec 128 h.base h.sent w i.vs hb.1 (by omega) (by omega)
    have hc : (UlWin.markResendLoop 128 (h.base % 128) w).2 ≠ 0 := by
      rw [Ne, e]; intro hx; exact hx h.base (by omega) hlt hun
    refine ⟨hlt, (UlWin.markResendLoop 128 (h.base % 128) w).1, ?_, ?_, ?_⟩
    · have hm : w.markForResend = UlWin.markResendLoop 128 (h.base % 128) w := by
        unfold UlWin.markForResend; rw [i.va]; rfl
      simp only [UlWin.restartCycle, he, hm, hc, if_false]
      rfl
    · refine ⟨by rw [b]; exact i.va, by rw [a]; exact i.vs, hle, fun n hn1 hn2 => ?_⟩
      rw [c n hn1 hn2]
      have hag := i.agrees n hn1 hn2
      revert hag
      cases w.vb (n % 128) <;> cases h.news n <;> simp [Agrees]
    · unfold UlWin.need
      rw [c h.base (by omega) hlt, if_pos hun]
      exact Or.inr rfl

/-- What a request for a block leads to. -/
structure RtsSpec (c : UlTxCtx) (h : UlNotes) (bsn : Nat) (k : UlTxKind) : Prop where
  new : k = .new → bsn = h.sent % 128 ∧ h.sent < h.base + 64 ∧ c.haveData = true ∧ c.finished = false ∧
    ∀ n, h.base ≤ n → n < h.sent → h.news n ≠ .missing
  retransmit : k = .retransmit → ∃ m, h.base ≤ m ∧ m < h.sent ∧ bsn = m % 128 ∧ h.news m ≠ .acked ∧
    ∀ n, h.base ≤ n → n < h.sent → h.news n = .missing → m ≤ n
  filler : k = .filler → bsn = (h.sent + 127) % 128 ∧
    (∀ n, h.base ≤ n → n < h.sent → h.news n ≠ .missing) ∧
    (h.base < h.sent → c.finished = false ∧ h.sent < h.base + 64 ∧ c.haveData = false ∧ c.preemptive = false)

theorem takeNext_need {w : UlWin} {h : UlNotes} (i : UlInv w h) (c : UlTxCtx) (d : Nat)
    (hne : ∃ n, h.base ≤ n ∧ n < h.sent ∧ w.need n) :
    ∃ m, h.base ≤ m ∧ m < h.sent ∧ w.need m ∧ (∀ k, h.base ≤ k → k < m → ¬ w.need k) ∧
      UlWin.takeNext c (d + 1) w = some (w.mark (m % 128) .unacked, m % 128, .retransmit) := by
  rcases i.resendNeeded with ⟨_, hx⟩ | ⟨m, h1, h2, h3, h4, h5⟩
  · obtain ⟨n, hn1, hn2, hn3⟩ := hne
    exact absurd hn3 (hx n hn1 hn2)
  · exact ⟨m, h1, h2, h4, h5, by simp [UlWin.takeNext, h3]⟩

theorem need_of_missing {w : UlWin} {h : UlNotes} (i : UlInv w h) {n : Nat} (h1 : h.base ≤ n) (h2 : n < h.sent)
    (hm : h.news n = .missing) : w.need n := by
  left
  exact (i.agrees n h1 h2).missing_iff.mpr hm

theorem rts_of_need {w : UlWin} {h : UlNotes} (i : UlInv w h) (c : UlTxCtx) (d : Nat)
    (hne : ∃ n, h.base ≤ n ∧ n < h.sent ∧ w.need n) :
    ∃ w' bsn k, UlWin.takeNext c (d + 1) w = some (w', bsn, k) ∧ UlInv w' (h.note (.rts c) (some (bsn, k))) ∧
      RtsSpec c h bsn k := by
  obtain ⟨m, h1, h2, h3, h4, h5⟩ := takeNext_need i c d hne
  refine ⟨_, _, _, h5, (i.retransmit c m h1 h2 h3).1, ⟨nofun, fun _ => ?_, nofun⟩⟩
  refine ⟨m, h1, h2, rfl, ?_, fun n hn1 hn2 hn3 => ?_⟩
  · intro he
    rw [← (i.agrees m h1 h2).acked_iff] at he
    rcases h3 with h3 | h3 <;> rw [h3] at he <;> cases he
  · rcases Nat.lt_or_ge n m with hlt | hge
    · exact absurd (need_of_missing i hn1 hn2 hn3) (h4 n hn1 hlt)
    · exact hge

theorem takeNext_none {w : UlWin} (hr : w.resendNeeded = none) (c : UlTxCtx) (d : Nat) :
    UlWin.takeNext c (d + 1) w =
      if c.finished then
        match w.restartCycle with
        | (w', true) => UlWin.takeNext c d w'
        | (w', false) => some w'.fillerTx
      else if w.stalled then
        match w.restartCycle with
        | (w', true) => UlWin.takeNext c d w'
        | (w', false) => some w'.fillerTx
      else if c.haveData then some w.newTx
      else if c.preemptive && !w.empty then
        match w.restartCycle with
        | (w', true) => UlWin.takeNext c d w'
        | (w', false) => some w'.fillerTx
      else some w.fillerTx := by
  rw [UlWin.takeNext, hr]; rfl

theorem rts_spec {w : UlWin} {h : UlNotes} (i : UlInv w h) (c : UlTxCtx) :
    ∃ w' bsn k, UlWin.takeNext c 2 w = some (w', bsn, k) ∧ UlInv w' (h.note (.rts c) (some (bsn, k))) ∧
      RtsSpec c h bsn k := by
  have hb := base_spec h
  have hle := i.le
  rcases i.resendNeeded with ⟨hr, hno⟩ | ⟨m, h1, h2, h3, h4, h5⟩
  · have hnm : ∀ n, h.base ≤ n → n < h.sent → h.news n ≠ .missing :=
      fun n hn1 hn2 hm => hno n hn1 hn2 (need_of_missing i hn1 hn2 hm)
    have hfill : w.fillerTx = (w, (h.sent + 127) % 128, .filler) := by
      simp only [UlWin.fillerTx, i.vs, modSns_eq, Prod.mk.injEq, true_and, and_true]
      omega
    have cyc : (h.base < h.sent → c.finished = true ∨ w.stalled = true ∨ c.preemptive = true) →
        (match w.restartCycle with
          | (w', true) => UlWin.takeNext c 1 w'
          | (w', false) => some w'.fillerTx) = UlWin.takeNext c 2 w →
        ∃ w' bsn k, UlWin.takeNext c 2 w = some (w', bsn, k) ∧ UlInv w' (h.note (.rts c) (some (bsn, k))) ∧
          RtsSpec c h bsn k := by
      intro _ heq
      rw [← heq]
      rcases i.restart hno with ⟨he, hr2⟩ | ⟨hlt, w', hr2, i', hn⟩
      · rw [hr2]
        refine ⟨w, (h.sent + 127) % 128, .filler, by simp [hfill], i, ⟨nofun, nofun, fun _ => ?_⟩⟩
        exact ⟨rfl, hnm, fun hx => by omega⟩
      · rw [hr2]
        exact rts_of_need i' c 0 ⟨h.base, by omega, hlt, hn⟩
    by_cases hf : c.finished = true
    · exact cyc (fun _ => Or.inl hf) (by rw [takeNext_none hr, if_pos hf])
    · by_cases hst : w.stalled = true
      · exact cyc (fun _ => Or.inr (Or.inl hst)) (by rw [takeNext_none hr, if_neg hf, if_pos hst])
      · have hlt : h.sent < h.base + 64 := by
          have : h.sent ≠ h.base + 64 := fun hx => hst (i.stalled.mpr hx)
          omega
        by_cases hd : c.haveData = true
        · obtain ⟨hi, hout, _⟩ := i.new c (h.sent % 128) hlt
          refine ⟨w.newTx.1, h.sent % 128, .new, ?_, hi, ⟨fun _ => ?_, nofun, nofun⟩⟩
          · rw [takeNext_none hr, if_neg hf, if_neg hst, if_pos hd, ← hout]
          · exact ⟨rfl, hlt, hd, by simpa using hf, hnm⟩
        · by_cases hp : (c.preemptive && !w.empty) = true
          · exact cyc (fun _ => Or.inr (Or.inr (by revert hp; cases c.preemptive <;> simp)))
              (by rw [takeNext_none hr, if_neg hf, if_neg hst, if_neg hd, if_pos hp])
          · refine ⟨w, (h.sent + 127) % 128, .filler, ?_, i, ⟨nofun, nofun, fun _ => ?_⟩⟩
            · rw [takeNext_none hr, if_neg hf, if_neg hst, if_neg hd, if_neg hp, hfill]
            · refine ⟨rfl, hnm, fun hx => ⟨by simpa using hf, hlt, by simpa using hd, ?_⟩⟩
              have hne : w.empty = false := by
                cases hc : w.empty with
                | false => rfl
                | true => have := i.empty.mp hc; omega
              revert hp
              rw [hne]
              cases c.preemptive <;> simp
  · exact rts_of_need i c 1 ⟨m, h1, h2, h4⟩

/-- Moving the window up to the first block that is not acknowledged. -/
theorem UlInv.move (w : UlWin) (h : UlNotes) (b : Nat) (hva : w.va = b % 128) (hvs : w.vs = h.sent % 128)
    (hb : b ≤ h.sent) (hle : h.sent ≤ b + 64) (hack : ∀ n, n < b → h.news n = .acked)
    (hag : ∀ n, b ≤ n → n < h.sent → Agrees (w.vb (n % 128)) (h.news n)) :
    UlInv (w.moveWindow.1.raise w.moveWindow.2) h := by
  obtain ⟨a1, a2, q, c1, c2, c3, c4, c5, c6⟩ := moveLoop_spec 128 b h.sent w hvs hb (by omega) (by omega)
  have hm : w.moveWindow = UlWin.moveLoop 128 (b % 128) w := by unfold UlWin.moveWindow; rw [hva]; rfl
  rw [hm]
  have hq : h.base = q := by
    apply base_eq h q c2
    · intro n hn
      by_cases hnb : n < b
      · exact hack n hnb
      · exact (hag n (by omega) (by omega)).acked_iff.mp (c4 n (by omega) hn)
    · intro hlt he
      exact c5 hlt ((hag q c1 hlt).acked_iff.mpr he)
  refine ⟨?_, by simp only [UlWin.raise, a1, hvs], by omega, fun n hn1 hn2 => ?_⟩
  · simp only [UlWin.raise, a2, hva, c3, modSns_eq, hq]; omega
  · simp only [UlWin.raise]
    rw [hq] at hn1
    rw [c6 (n % 128) (fun m hm1 hm2 => mod_ne (a := b) (by omega) (by omega) hm1 (by omega) (by omega))]
    exact hag n (by omega) hn2

theorem getD_map_range (f : Nat → Bool) (n k : Nat) (hk : k < n) :
    ((List.range n).map f).getD k false = f k := by
  simp [List.getD_eq_getElem?_getD, hk]

theorem UlInv.ackNack {w : UlWin} {h : UlNotes} (i : UlInv w h) (d : UlAckDesc) (hd : d.ssn < 128)
    (o : Option (Nat × UlTxKind)) : UlInv (w.handleAckNack d) (h.note (.ackNack d) o) := by
  have hb := base_spec h
  have hle := i.le
  by_cases hf : d.finalAck = true
  · have h1 : w.handleAckNack d = UlWin.init := by simp [UlWin.handleAckNack, hf]
    have h2 : h.note (.ackNack d) o = UlNotes.init := by simp [UlNotes.note, hf, UlNotes.init]
    rw [h1, h2]
    exact UlInv.init
  · have hnum : modSns (sub16 d.ssn w.va) = (d.ssn + 128 - h.base % 128) % 128 := by
      simp only [modSns_eq, sub16, i.va]; omega
    have hfst : (w.decodeAckNack d).2 = w.va := by
      simp only [UlWin.decodeAckNack, hf]
      by_cases hg : modSns (sub16 d.ssn w.va) > 64 <;> simp [hg]
    obtain ⟨bits, hbits, hlen, hval⟩ : ∃ bits, w.decodeAckNack d = (bits, w.va) ∧
        bits.length ≤ 64 ∧
        ∀ n, h.base ≤ n → n < h.sent → h.reported d n =
          if n - h.base < bits.length then some (bits.getD (n - h.base) false) else none := by
      refine ⟨(w.decodeAckNack d).1, by rw [← hfst], ?_, ?_⟩
      · simp only [UlWin.decodeAckNack, hf]
        by_cases hg : modSns (sub16 d.ssn w.va) > 64
        · simp [hg]
        · simp [hg]; omega
      · intro n hn1 hn2
        simp only [UlWin.decodeAckNack, hf]
        rw [hnum]
        generalize hN : (d.ssn + 128 - h.base % 128) % 128 = N
        by_cases hg : N > 64
        · have : ¬ (h.base + N ≤ h.base + 64 ∧ h.base ≤ n ∧ n < h.base + N ∧ n < h.sent) := by omega
          simp [UlNotes.reported, hN, hg]
          omega
        · simp only [hg, if_false, Bool.false_eq_true, List.length_map, List.length_range]
          by_cases hk : n - h.base < N
          · rw [if_pos hk, getD_map_range _ _ _ hk]
            have : h.base + N ≤ h.base + 64 ∧ h.base ≤ n ∧ n < h.base + N ∧ n < h.sent := by omega
            simp only [UlNotes.reported, hN]
            rw [if_pos this]
            have e : h.base + N - n = N - (n - h.base) := by omega
            rw [e]
          · rw [if_neg hk]
            have : ¬ (h.base + N ≤ h.base + 64 ∧ h.base ≤ n ∧ n < h.base + N ∧ n < h.sent) := by omega
            simp only [UlNotes.reported, hN]
            rw [if_neg this]
    have hnote : h.note (.ackNack d) o = { h with news := fun n => match h.reported d n with
        | some true => .acked
        | some false => .missing
        | none => h.news n } := by
      simp only [UlNotes.note]; rw [if_neg hf]; rfl
    have hout : w.handleAckNack d = (w.update bits w.va).moveWindow.1.raise (w.update bits w.va).moveWindow.2 := by
      simp only [UlWin.handleAckNack, hbits, hf]
      rfl
    rw [hout]
    have hdist := i.distance
    -- the bits that are applied
    generalize hl : bits.take (if bits.length > w.distance then w.distance else bits.length) = l
    have hll : l.length = min bits.length (h.sent - h.base) := by
      rw [← hl, List.length_take, hdist]
      split <;> omega
    have hget : ∀ k, k < l.length → l.getD k false = bits.getD k false := by
      intro k hk
      rw [← hl] at hk ⊢
      simp only [List.length_take] at hk
      have hk' : k < if bits.length > w.distance then w.distance else bits.length := by omega
      simp only [List.getD_eq_getElem?_getD, List.getElem?_take]
      rw [if_pos hk']
    have hupd : w.update bits w.va = UlWin.updateLoop l w.va w := by
      simp only [UlWin.update]; rw [hl]
    obtain ⟨c1, c2, c3, c4⟩ := updateLoop_spec l h.base 0 w.va w i.va (by rw [i.va]; omega) (by omega)
    rw [hupd]
    apply UlInv.move _ _ h.base
    · rw [c2]; exact i.va
    · rw [c1, hnote]; exact i.vs
    · rw [hnote]; exact hb.1
    · rw [hnote]; exact hle
    · intro n hn
      rw [hnote]
      have : h.reported d n = none := by
        simp only [UlNotes.reported]
        rw [if_neg (by omega)]
      simp only [this]
      exact hb.2.1 n hn
    · intro n hn1 hn2
      rw [hnote] at hn2 ⊢
      have hn2' : n < h.sent := hn2
      simp only [hval n hn1 hn2']
      by_cases hk : n - h.base < bits.length
      · have hkl : n - h.base < l.length := by omega
        have := c3 (n - h.base) hkl
        rw [show h.base + 0 + (n - h.base) = n by omega, hget _ hkl] at this
        rw [this, if_pos hk]
        cases bits.getD (n - h.base) false <;> simp [Agrees]
      · rw [if_neg hk]
        rw [c4 (n % 128) (fun k hk2 => mod_ne (a := h.base) hn1 (by omega) (by omega) (by omega) (by omega))]
        exact i.agrees n hn1 hn2'

theorem observe_inv (es : List UlEv) : ∀ (w : UlWin) (h : UlNotes), UlInv w h → (∀ e ∈ es, WfUlEv e) →
    ∃ w' h', observe es (w, h) = some (w', h') ∧ UlInv w' h' := by
  induction es with
  | nil => intro w h i _; exact ⟨w, h, rfl, i⟩
  | cons e es ih =>
    intro w h i hwf
    have hwf' : ∀ e ∈ es, WfUlEv e := fun x hx => hwf x (List.mem_cons_of_mem _ hx)
    cases e with
    | rts c =>
      obtain ⟨w', bsn, k, h1, h2, _⟩ := rts_spec i c
      simp only [observe, UlWin.step, h1, Option.map_some]
      exact ih _ _ h2 hwf'
    | ackNack d =>
      simp only [observe, UlWin.step]
      exact ih _ _ (i.ackNack d (hwf _ List.mem_cons_self) none) hwf'

end Verif.Rlc
