import Verif.Rlc.WindowUlInv

/-!
# C15, C16, C22: the RLC uplink window
-/
namespace Verif.Props

open Verif.Spec Verif.Rlc

/-- **C15.** After every history of requests to send and of Packet Uplink Ack/Nack messages, with
arbitrary SSNs, bitmaps and final ack indications: the sender has always answered, the blocks between the
oldest not acknowledged one and the next new one (V(A) to V(S), modulo 128) are at most 64, "stalled" is
reported exactly when they are 64 and "empty" exactly when there are none, and a stalled window admits no
new block while one that is not stalled does, once no retransmission is due, if there is data. -/
theorem c15_window_bounded (es : List UlEv) (hwf : ∀ e ∈ es, WfUlEv e) :
    ∃ w h, observe es (UlWin.init, UlNotes.init) = some (w, h) ∧
      w.va = h.base % 128 ∧ w.vs = h.sent % 128 ∧ h.base ≤ h.sent ∧ h.sent ≤ h.base + 64 ∧
      (w.stalled = true ↔ h.sent = h.base + 64) ∧
      (w.empty = true ↔ h.sent = h.base) ∧
      ∀ c, ∃ w' bsn k, w.step (.rts c) = some (w', some (bsn, k)) ∧
        (w.stalled = true → k ≠ .new) ∧
        (k = .new → bsn = h.sent % 128) ∧
        (w.stalled = false → c.haveData = true → c.finished = false → k = .new ∨ k = .retransmit) := by
  obtain ⟨w, h, ho, i⟩ := observe_inv es _ _ UlInv.init hwf
  refine ⟨w, h, ho, i.va, i.vs, (base_spec h).1, i.le, i.stalled, i.empty, fun c => ?_⟩
  obtain ⟨w', bsn, k, h1, _, h3⟩ := rts_spec i c
  refine ⟨w', bsn, k, by simp [UlWin.step, h1], fun hs hk => ?_, fun hk => (h3.new hk).1, fun hs hd hf => ?_⟩
  · have := (h3.new hk).2.1
    have := i.stalled.mp hs
    omega
  · cases k with
    | new => exact Or.inl rfl
    | retransmit => exact Or.inr rfl
    | filler =>
      obtain ⟨_, _, hx⟩ := h3.filler rfl
      by_cases he : h.base < h.sent
      · have := (hx he).2.2.1
        rw [hd] at this; cases this
      · exfalso
        -- an empty window with data sends a new block
        have hb := (base_spec h).1
        have hnone : w.resendNeeded = none := by
          rcases i.resendNeeded with ⟨a, _⟩ | ⟨m, a, b, _⟩
          · exact a
          · omega
        rw [takeNext_none hnone, hf, hs, hd] at h1
        simp [UlWin.newTx] at h1

/-- **C16.** After every such history: the blocks that have left the window (those below V(A)) are
acknowledged, and no later news about them is that they are missing or were sent again; as long as any
block in the window is reported missing, the next block sent is no new one and not a mere filler: it is a
block of the window that is not acknowledged, no later than the oldest one reported missing. -/
theorem c16_leaves_only_acknowledged (es : List UlEv) (hwf : ∀ e ∈ es, WfUlEv e) :
    ∃ w h, observe es (UlWin.init, UlNotes.init) = some (w, h) ∧
      (∃ a, w.va = a % 128 ∧ a ≤ h.sent ∧ h.sent ≤ a + 64 ∧ (∀ n, n < a → h.news n = .acked) ∧
        (a < h.sent → h.news a ≠ .acked) ∧
        ∀ c n, a ≤ n → n < h.sent → h.news n = .missing →
          ∃ w' bsn m, w.step (.rts c) = some (w', some (bsn, .retransmit)) ∧ bsn = m % 128 ∧
            a ≤ m ∧ m ≤ n ∧ h.news m ≠ .acked) := by
  obtain ⟨w, h, ho, i⟩ := observe_inv es _ _ UlInv.init hwf
  have hb := base_spec h
  refine ⟨w, h, ho, h.base, i.va, hb.1, i.le, hb.2.1, hb.2.2, fun c n hn1 hn2 hm => ?_⟩
  obtain ⟨w', bsn, k, h1, _, h3⟩ := rts_spec i c
  cases k with
  | new => exact absurd hm ((h3.new rfl).2.2.2.2 n hn1 hn2)
  | filler => exact absurd hm ((h3.filler rfl).2.1 n hn1 hn2)
  | retransmit =>
    obtain ⟨m, m1, m2, m3, m4, m5⟩ := h3.retransmit rfl
    exact ⟨w', bsn, m, by simp [UlWin.step, h1], m3, m1, m5 n hn1 hn2 hm, m4⟩

/-- **C16**, every block is repeated until it is acknowledged: when the window is full, or everything has been
sent (TBF finished), and a block of the window is not acknowledged, the next block sent is a block of the
window that is not acknowledged. -/
theorem c16_unacknowledged_repeated (es : List UlEv) (hwf : ∀ e ∈ es, WfUlEv e) :
    ∃ w h, observe es (UlWin.init, UlNotes.init) = some (w, h) ∧
      ∀ c, (w.stalled = true ∨ c.finished = true) → w.empty = false →
        ∃ w' bsn m, w.step (.rts c) = some (w', some (bsn, .retransmit)) ∧ bsn = m % 128 ∧
          h.base ≤ m ∧ m < h.sent ∧ h.news m ≠ .acked := by
  obtain ⟨w, h, ho, i⟩ := observe_inv es _ _ UlInv.init hwf
  have hb := base_spec h
  refine ⟨w, h, ho, fun c hc he => ?_⟩
  have hlt : h.base < h.sent := by
    have : h.sent ≠ h.base := fun hx => by have := i.empty.mpr hx; rw [he] at this; cases this
    omega
  obtain ⟨w', bsn, k, h1, _, h3⟩ := rts_spec i c
  cases k with
  | new =>
    obtain ⟨_, a, _, b, _⟩ := h3.new rfl
    rcases hc with hc | hc
    · have := i.stalled.mp hc; omega
    · rw [hc] at b; cases b
  | filler =>
    obtain ⟨_, _, hx⟩ := h3.filler rfl
    obtain ⟨a, b, _⟩ := hx hlt
    rcases hc with hc | hc
    · have := i.stalled.mp hc; omega
    · rw [hc] at a; cases a
  | retransmit =>
    obtain ⟨m, m1, m2, m3, m4, _⟩ := h3.retransmit rfl
    exact ⟨w', bsn, m, by simp [UlWin.step, h1], m3, m1, m2, m4⟩

/-- Distance from `a` up to `b` in the circle of 128 sequence numbers. -/
def ahead (a b : Nat) : Nat := (b + 128 - a) % 128

/-- **C22.** For every window (V(A), V(S) below 128, at most 64 apart), every SSN and every bitmap: the report
marks sequence number `bsn` acknowledged or missing, according to bit `SSN - bsn` of the bitmap counted
1 to 64 from its end, exactly if SSN is at most 64 ahead of V(A), `bsn` lies from V(A) up to below SSN, and
`bsn` lies from V(A) up to below V(S); every other sequence number keeps its state. -/
theorem c22_bitmap_applied (w : UlWin) (d : UlAckDesc) (hva : w.va < 128) (hvs : w.vs < 128)
    (hw : ahead w.va w.vs ≤ 64) (hssn : d.ssn < 128) (hf : d.finalAck = false) (bsn : Nat) (hb : bsn < 128) :
    (w.update (w.decodeAckNack d).1 (w.decodeAckNack d).2).state bsn =
      if ahead w.va d.ssn ≤ 64 ∧ ahead w.va bsn < ahead w.va d.ssn ∧ ahead w.va bsn < ahead w.va w.vs then
        (if bitAt d.rbb (64 - ahead bsn d.ssn) then .acked else .nacked)
      else w.state bsn := by
  have hnum : modSns (sub16 d.ssn w.va) = ahead w.va d.ssn := by
    simp only [modSns_eq, sub16, ahead]; omega
  have hdist : w.distance = ahead w.va w.vs := by
    simp only [UlWin.distance, modSns_eq, sub16, ahead]; omega
  have hidx : w.state bsn = w.vb bsn := by rw [UlWin.state, idx_eq, Nat.mod_eq_of_lt (by omega)]
  have hst : ∀ w' : UlWin, w'.state bsn = w'.vb bsn := fun w' => by
    rw [UlWin.state, idx_eq, Nat.mod_eq_of_lt (by omega)]
  simp only [UlWin.decodeAckNack, hf, Bool.false_eq_true, if_false, hnum]
  by_cases hg : ahead w.va d.ssn > 64
  · rw [if_pos hg]
    rw [if_neg (by omega)]
    have : w.update [] w.va = w := by simp [UlWin.update, UlWin.updateLoop]
    simp only [this]
  · rw [if_neg hg]
    simp only [UlWin.update, hdist, List.length_map, List.length_range]
    generalize hl : (List.take _ ((List.range (ahead w.va d.ssn)).map fun k =>
      bitAt d.rbb (64 - (ahead w.va d.ssn - k)))) = l
    have hll : l.length = min (ahead w.va d.ssn) (ahead w.va w.vs) := by
      rw [← hl, List.length_take, List.length_map, List.length_range]
      split <;> omega
    have hget : ∀ k, k < l.length → l.getD k false = bitAt d.rbb (64 - (ahead w.va d.ssn - k)) := by
      intro k hk
      have hk1 : k < ahead w.va d.ssn := by omega
      have hk2 : k < ahead w.va w.vs := by omega
      rw [← hl]
      simp only [List.getD_eq_getElem?_getD, List.getElem?_take]
      rw [if_pos (by split <;> omega)]
      simp [hk1]
    obtain ⟨_, _, c3, c4⟩ := updateLoop_spec l w.va 0 w.va w (by omega) (by omega) (by omega)
    rw [hst, hidx]
    by_cases hin : ahead w.va bsn < ahead w.va d.ssn ∧ ahead w.va bsn < ahead w.va w.vs
    · rw [if_pos ⟨by omega, hin.1, hin.2⟩]
      have := c3 (ahead w.va bsn) (by omega)
      rw [hget _ (by omega)] at this
      have e1 : (w.va + 0 + ahead w.va bsn) % 128 = bsn := by simp only [ahead]; omega
      have e2 : ahead w.va d.ssn - ahead w.va bsn = ahead bsn d.ssn := by
        have := hin.1
        simp only [ahead] at this ⊢; omega
      rw [e1, e2] at this
      exact this
    · rw [if_neg (fun hx => hin hx.2)]
      apply c4
      intro k hk he
      apply hin
      have : ahead w.va bsn = k := by
        have h1 : ahead w.va d.ssn ≤ 64 := by omega
        have h2 : k < 64 := by omega
        subst he
        simp only [ahead]; omega
      omega

/-- C15/C16 are not vacuous: with 64 blocks sent and none acknowledged the window is stalled; blocks 0 and 2
acknowledged and block 1 missing, V(A) is 1 and block 1 is sent again next. -/
example :
    let c : UlTxCtx := ⟨false, true, false⟩
    let d : UlAckDesc := ⟨false, 3, [0, 0, 0, 0, 0, 0, 0, 0b101]⟩
    (∀ e ∈ List.replicate 64 (UlEv.rts c) ++ [.ackNack d], WfUlEv e) ∧
    (match observe (List.replicate 64 (.rts c)) (UlWin.init, UlNotes.init) with
      | some (w, h) => w.stalled && h.sent == 64 && h.base == 0
      | none => false) = true ∧
    (match observe (List.replicate 64 (.rts c) ++ [.ackNack d]) (UlWin.init, UlNotes.init) with
      | some (w, h) => w.va == 1 && h.base == 1 && h.news 1 == .missing &&
          (match w.step (.rts c) with
            | some (_, o) => o == some (1, .retransmit)
            | none => false)
      | none => false) = true := by
  refine ⟨?_, by decide +kernel, by decide +kernel⟩
  intro e he
  simp only [List.mem_append, List.mem_replicate, List.mem_singleton] at he
  rcases he with ⟨_, rfl⟩ | rfl
  · trivial
  · show (3 : Nat) < 128
    omega

/-- C22 is not vacuous: across the wrap-around, V(A)=126, V(S)=3, SSN=1, bits 1, 0, 1 for 126, 127, 0. -/
example :
    let w : UlWin := { vs := 3, va := 126, vb := fun _ => .unacked }
    let d : UlAckDesc := ⟨false, 1, [0, 0, 0, 0, 0, 0, 0, 0b101]⟩
    let w' := w.update (w.decodeAckNack d).1 (w.decodeAckNack d).2
    ahead w.va w.vs = 5 ∧ w'.state 126 = .acked ∧ w'.state 127 = .nacked ∧ w'.state 0 = .acked ∧
      w'.state 1 = .unacked := by decide +kernel

end Verif.Props
