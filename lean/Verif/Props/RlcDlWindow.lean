import Verif.Rlc.WindowDlLemmas

/-!
# RLC downlink window: C17 (receive state), C18 (ACK/NACK bitmap)
-/
namespace Verif.Props

open Verif.Rlc Verif.Spec

/-- The window after the blocks numbered `h` have arrived, in this order. -/
def dlAfter (h : List Nat) : DlWin := h.foldl (fun w n => (w.rcv (n % 128)).1) DlWin.init

/-- The receive state of `w` is that of the ideal receiver after history `h`. -/
def DlExact (h : List Nat) (w : DlWin) : Prop :=
  ∃ q r, LowestMissing h q ∧ OneAboveHighest h r ∧ w.vq = q % 128 ∧ w.vr = r % 128 ∧
    ∀ n, q ≤ n → n < q + 64 → (w.isReceived (n % 128) = true ↔ n ∈ h)

/-- C17 as listed. -/
def C17Statement : Prop := ∀ h, RespectsWindow h → DlExact h (dlAfter h)

/-- Fewer than 63 blocks in a row get lost: no block arrives 63 or more above the numbers seen so far. -/
def NoLongGap (h : List Nat) : Prop :=
  ∀ p n s, h = p ++ n :: s → ∀ r, OneAboveHighest p r → n < r + 63

theorem oneAbove_unique {h : List Nat} {r r' : Nat} (a : OneAboveHighest h r) (b : OneAboveHighest h r') :
    r = r' := by
  rcases a.2 with x | x <;> rcases b.2 with y | y
  · omega
  · have := a.1 _ y; omega
  · have := b.1 _ x; omega
  · have := a.1 _ y; have := b.1 _ x; omega

theorem lowest_unique {h : List Nat} {q q' : Nat} (a : LowestMissing h q) (b : LowestMissing h q') : q = q' := by
  rcases Nat.lt_trichotomy q q' with x | x | x
  · exact absurd (b.2 _ x) a.1
  · exact x
  · exact absurd (a.2 _ x) b.1

theorem foldl_complete : ∀ (s p : List Nat) (w : DlWin), (∃ q r, Complete p q r w) →
    RespectsWindow (p ++ s) → NoLongGap (p ++ s) →
    ∃ q r, Complete (p ++ s) q r (s.foldl (fun w n => (w.rcv (n % 128)).1) w) := by
  intro s
  induction s with
  | nil => intro p w h _ _; simpa using h
  | cons n s ih =>
    intro p w hc hw hg
    obtain ⟨q, r, c⟩ := hc
    have a := hw p n s rfl q ⟨c.miss, c.low⟩
    have b := hg p n s rfl r c.top
    have := ih (p ++ [n]) (w.rcv (n % 128)).1 (c.rcv a.1 a.2 b) (by simpa using hw) (by simpa using hg)
    simpa using this

theorem after_complete (h : List Nat) (hw : RespectsWindow h) (hg : NoLongGap h) :
    ∃ q r, Complete h q r (dlAfter h) :=
  foldl_complete h [] DlWin.init ⟨0, 0, Complete.init⟩ (by simpa using hw) (by simpa using hg)

/-- C17, partial: histories in which 63 consecutive blocks are lost are excluded. -/
theorem c17_dl_window_exact_partial (h : List Nat) (hw : RespectsWindow h) (hg : NoLongGap h) :
    DlExact h (dlAfter h) := by
  obtain ⟨q, r, c⟩ := after_complete h hw hg
  refine ⟨q, r, ⟨c.miss, c.low⟩, c.top, c.vq, c.vr, fun n h1 h2 => ?_⟩
  have hqr := c.qr
  have hrq := c.rq
  have h3 : (dlAfter h).isInWindow (n % 128) = true := (isInWindow_iff c.vq h2 (by omega)).2 h1
  simp only [DlWin.isReceived, h3, Bool.true_and, Bool.and_eq_true, decide_eq_true_eq, isReceivedVn_iff]
  have h4 : modSns (sub16 (dlAfter h).vr (1 + n % 128)) < ws ↔ n < r := by
    rw [c.vr]
    simp only [modSns_eq, sub16, ws]
    omega
  rw [h4]
  constructor
  · rintro ⟨a, b⟩
    exact c.rcvd n (by omega) (by omega) a
  · intro hn
    have := c.top.1 n hn
    exact ⟨c.all n hn (by omega), this⟩

theorem range_split {k : Nat} {p s : List Nat} {n : Nat} (e : List.range k = p ++ n :: s) : p = List.range n := by
  have hl : p.length < k := by
    have := congrArg List.length e
    simp at this
    omega
  have h1 : (List.range k)[p.length]? = some n := by rw [e]; simp
  rw [List.getElem?_range hl] at h1
  have h2 : n = p.length := by simpa using h1.symm
  have h3 : (List.range k).take p.length = p := by rw [e]; simp
  rw [← h3, h2, List.take_range]
  congr 1
  omega

theorem range_lowest (n : Nat) : LowestMissing (List.range n) n := ⟨by simp, by simp⟩

theorem range_above (n : Nat) : OneAboveHighest (List.range n) n := by
  refine ⟨by simp, ?_⟩
  rcases Nat.eq_zero_or_pos n with e | e
  · exact Or.inl e
  · exact Or.inr (by simp; omega)

theorem small_ok {h : List Nat} (hs : ∀ n ∈ h, n < 63) : RespectsWindow h ∧ NoLongGap h := by
  constructor
  · intro p n s e q hq
    have : n < 63 := hs n (by rw [e]; simp)
    have hq : q ≤ 63 := by
      rcases Nat.lt_or_ge 63 q with x | x
      · exact absurd (hs 63 (by rw [e]; simp [hq.2 63 x])) (by omega)
      · exact x
    omega
  · intro p n s e r _
    have : n < 63 := hs n (by rw [e]; simp)
    omega

/-- The hypotheses of C17 are met by a history with loss, reordering and a duplicate, and by uninterrupted
reception of any number of blocks. -/
example : RespectsWindow [0, 2, 2, 1, 4] ∧ NoLongGap [0, 2, 2, 1, 4] := small_ok (by decide)

example (k : Nat) : RespectsWindow (List.range k) ∧ NoLongGap (List.range k) := by
  constructor
  · intro p n s e q hq
    rw [range_split e] at hq
    have := lowest_unique hq (range_lowest n)
    omega
  · intro p n s e r hr
    rw [range_split e] at hr
    have := oneAbove_unique hr (range_above n)
    omega

theorem nil_lowest {q : Nat} (h : LowestMissing [] q) : q = 0 := by
  rcases Nat.eq_zero_or_pos q with e | e
  · exact e
  · exact absurd (h.2 0 e) (by simp)

theorem single_respects {n : Nat} (h : n < 64) : RespectsWindow [n] := by
  intro p m s e q hq
  cases p with
  | nil =>
    have := nil_lowest hq
    simp at e
    omega
  | cons a p => simp at e

/-- C17 fails: after block 63 alone (inside the window) V(R) must be 64; it stays 0. -/
theorem c17_dl_window_exact_violated : ¬ C17Statement := by
  intro H
  obtain ⟨q, r, _, hr, _, hvr, _⟩ := H [63] (single_respects (by omega))
  have : r = 64 := oneAbove_unique hr ⟨by simp, Or.inr (by simp)⟩
  subst this
  revert hvr
  decide +kernel

theorem stuck (w : DlWin) (a : w.vq = w.vr) (b : w.isReceivedVn 63 = true) (k : Nat) :
    (List.replicate k 63).foldl (fun w n => (w.rcv (n % 128)).1) w = w := by
  induction k with
  | zero => rfl
  | succ k ih =>
    rw [List.replicate_succ, List.foldl_cons]
    have hr : w.raiseVq = (w, 0) := by
      show w.raiseVqLoop (127 + 1) = (w, 0)
      rw [DlWin.raiseVqLoop, if_pos a]
    have hw : (w.rcv (63 % 128)).1 = w := by
      simp only [DlWin.rcv, show 63 % 128 = 63 from rfl, b, if_true, hr, ite_self]
    rw [hw]
    exact ih

/-- What becomes of it: block 63 arrives first, then 0..62, then block 63 is retransmitted any number of
times.  Every copy of block 63 is discarded and V(Q) and V(R) (the SSN of the acknowledgements) stay 63:
block 63 is neither delivered nor ever acknowledged. -/
theorem c17_dl_window_deadlock_violated (k : Nat) :
    let h := [63] ++ List.range 63 ++ List.replicate k 63
    RespectsWindow h ∧ LowestMissing h 64 ∧ (dlAfter h).vq = 63 ∧ (dlAfter h).vr = 63 := by
  intro h
  have hmem : ∀ n, n < 64 → n ∈ h := by
    intro n hn
    simp only [h, List.mem_append, List.mem_range, List.mem_singleton]
    omega
  have hlt : ∀ n ∈ h, n < 64 := by
    intro n hn
    simp only [h, List.mem_append, List.mem_range, List.mem_singleton, List.mem_replicate] at hn
    omega
  refine ⟨?_, ⟨fun hh => absurd (hlt 64 hh) (by omega), hmem⟩, ?_⟩
  · intro p n s e q hq
    have hn : n < 64 := hlt n (by rw [e]; simp)
    have hq64 : q ≤ 64 := by
      rcases Nat.lt_or_ge 64 q with x | x
      · have : 64 ∈ p := hq.2 64 x
        exact absurd (hlt 64 (by rw [e]; simp [this])) (by omega)
      · exact x
    omega
  · have h0 : (dlAfter ([63] ++ List.range 63)).vq = 63 ∧ (dlAfter ([63] ++ List.range 63)).vr = 63 ∧
        (dlAfter ([63] ++ List.range 63)).isReceivedVn 63 = true := by decide +kernel
    have e : dlAfter h = (List.replicate k 63).foldl (fun w n => (w.rcv (n % 128)).1)
        (dlAfter ([63] ++ List.range 63)) := by
      simp only [h, dlAfter, List.foldl_append]
    rw [e, stuck _ (h0.1.trans h0.2.1.symm) h0.2.2]
    exact ⟨h0.1, h0.2.1⟩

/-! ## C18 -/

/-- C18 as listed: the starting sequence number is one above the highest number received, and for
`k` = 1..64 the bit for block SSN-`k` (bit `k` of the bitmap; bit 64 is transmitted first) says "received"
exactly if that block was received.  (Bits for numbers below 0 say "not received".) -/
def C18Exact (h : List Nat) (d : AckDesc) : Prop :=
  ∃ r, OneAboveHighest h r ∧ d.ssn = r % 128 ∧ d.rbb.length = 8 ∧
    ∀ k, 1 ≤ k → k ≤ 64 → (bitAt d.rbb (64 - k) = true ↔ k ≤ r ∧ r - k ∈ h)

def C18Statement : Prop := ∀ h, RespectsWindow h → C18Exact h (dlAfter h).ackDesc

theorem ackDesc_len (w : DlWin) : w.ackDesc.rbb.length = 8 := by
  simp only [DlWin.ackDesc, packBits_length]

theorem ackDesc_bit {w : DlWin} {r : Nat} (hr : w.vr = r % 128) {k : Nat} (h1 : 1 ≤ k) (h2 : k ≤ 64) :
    (bitAt w.ackDesc.rbb (64 - k) = true ↔ w.vn ((r + 128 - k) % 128) = .received) := by
  simp only [DlWin.ackDesc]
  rw [bitAt_packBits _ _ _ (by omega)]
  simp only [DlWin.rbb]
  rw [List.getD_eq_getElem?_getD, List.getElem?_map, List.getElem?_range (by simp [ws]; omega)]
  simp only [Option.map_some, Option.getD_some]
  have e : modSns (sub16 w.vr (1 + (ws - 1 - (64 - k)))) = (r + 128 - k) % 128 := by
    simp only [modSns_eq, sub16, ws, hr]
    omega
  rw [e, isReceivedVn_iff]

/-- C18, partial: histories in which 63 consecutive blocks are lost are excluded. -/
theorem c18_ack_bitmap_exact_partial (h : List Nat) (hw : RespectsWindow h) (hg : NoLongGap h) :
    C18Exact h (dlAfter h).ackDesc := by
  obtain ⟨q, r, c⟩ := after_complete h hw hg
  generalize dlAfter h = w at c
  refine ⟨r, c.top, c.vr, ackDesc_len w, fun k h1 h2 => ?_⟩
  rw [ackDesc_bit c.vr h1 h2]
  by_cases hk : k ≤ r
  · have e : (r + 128 - k) % 128 = (r - k) % 128 := by omega
    rw [e]
    exact ⟨fun x => ⟨hk, c.rcvd _ (by omega) (by omega) x⟩, fun x => c.all _ x.2 (by omega)⟩
  · have e : (r + 128 - k) % 128 = r + 128 - k := by omega
    rw [e]
    constructor
    · intro x; exact absurd x (c.unused _ (by omega) (by omega))
    · intro x; omega

example : (dlAfter [0, 2, 2, 1, 4]).ackDesc = { ssn := 5, rbb := [0, 0, 0, 0, 0, 0, 0, 0x1d] } := by decide +kernel

/-- C18 fails: blocks 63, 0, 1, 64 arrive; the acknowledgement (SSN 65) reports block 63 as not received. -/
theorem c18_ack_bitmap_exact_violated : ¬ C18Statement := by
  intro H
  have hw : RespectsWindow [63, 0, 1, 64] := by
    intro p n s e q hq
    rcases p with _ | ⟨a, _ | ⟨b, _ | ⟨c, _ | ⟨d, p⟩⟩⟩⟩ <;> simp at e
    · have : q = 0 := nil_lowest hq
      omega
    · have : q = 0 := lowest_unique hq ⟨by simp; omega, by simp⟩
      omega
    · obtain ⟨rfl, rfl, rfl, _⟩ := e
      have : q = 1 := lowest_unique hq ⟨by simp, by simp⟩
      omega
    · obtain ⟨rfl, rfl, rfl, rfl, _⟩ := e
      have : q = 2 := lowest_unique hq ⟨by simp, fun n hn => by simp; omega⟩
      omega
  obtain ⟨r, hr, _, _, hb⟩ := H _ hw
  have : r = 65 := oneAbove_unique hr ⟨by simp, Or.inr (by simp)⟩
  subst this
  have := (hb 2 (by omega) (by omega)).2 ⟨by omega, by simp⟩
  revert this
  decide +kernel

/-- The number of blocks taken out of the window (handed to reassembly) in a history. -/
def dlTaken (h : List Nat) : Nat :=
  (h.foldl (fun (s : DlWin × Nat) n => ((s.1.rcv (n % 128)).1, s.2 + (s.1.rcv (n % 128)).2)) (DlWin.init, 0)).2

/-- A sender that goes by the receiver's acknowledgements: every block that arrives is at most 63 above, and
at most 64 below, the blocks the receiver has already taken out. -/
def RespectsAcks (h : List Nat) : Prop :=
  ∀ p n s, h = p ++ n :: s → n < dlTaken p + 64 ∧ dlTaken p ≤ n + 64

theorem foldl_sound : ∀ (s p : List Nat) (w : DlWin) (q : Nat), (∃ r, Sound p q r w) →
    p.foldl (fun (s : DlWin × Nat) n => ((s.1.rcv (n % 128)).1, s.2 + (s.1.rcv (n % 128)).2)) (DlWin.init, 0) = (w, q) →
    RespectsAcks (p ++ s) →
    ∃ r, Sound (p ++ s) (dlTaken (p ++ s)) r (s.foldl (fun w n => (w.rcv (n % 128)).1) w) := by
  intro s
  induction s with
  | nil => intro p w q h e _; simpa [dlTaken, e] using h
  | cons n s ih =>
    intro p w q hc e hw
    obtain ⟨r, c⟩ := hc
    have ht : dlTaken p = q := by simp [dlTaken, e]
    have a := hw p n s rfl
    rw [ht] at a
    obtain ⟨r', c', _, _, _⟩ := c.rcv a.1 a.2
    have := ih (p ++ [n]) (w.rcv (n % 128)).1 (q + (w.rcv (n % 128)).2) ⟨r', c'⟩
      (by simp [List.foldl_append, e]) (by simpa using hw)
    simpa using this

/-- C18, the half that holds for every history: a block is never reported as received (and never handed to
reassembly) unless it was received. -/
theorem c18_no_false_ack (h : List Nat) (hw : RespectsAcks h) :
    ∃ r, (dlAfter h).ackDesc.ssn = r % 128 ∧
      (∀ k, 1 ≤ k → k ≤ 64 → bitAt (dlAfter h).ackDesc.rbb (64 - k) = true → k ≤ r ∧ r - k ∈ h) ∧
      (dlAfter h).vq = dlTaken h % 128 ∧ ∀ n, n < dlTaken h → n ∈ h := by
  obtain ⟨r, c⟩ := foldl_sound h [] DlWin.init 0 ⟨0, Sound.init⟩ rfl (by simpa using hw)
  change Sound h (dlTaken h) r (dlAfter h) at c
  generalize dlAfter h = w at c
  refine ⟨r, c.vr, fun k h1 h2 hb => ?_, c.vq, c.low⟩
  rw [ackDesc_bit c.vr h1 h2] at hb
  by_cases hk : k ≤ r
  · have e : (r + 128 - k) % 128 = (r - k) % 128 := by omega
    rw [e] at hb
    exact ⟨hk, c.rcvd _ (by omega) (by omega) hb⟩
  · have e : (r + 128 - k) % 128 = r + 128 - k := by omega
    rw [e] at hb
    exact absurd hb (c.unused _ (by omega) (by omega))

/-- Even the history on which the window gets stuck meets the hypothesis. -/
example : RespectsAcks [63, 0, 1, 64, 63] := by
  intro p n s e
  rcases p with _ | ⟨a, _ | ⟨b, _ | ⟨c, _ | ⟨d, _ | ⟨x, p⟩⟩⟩⟩⟩ <;> simp at e
  · obtain ⟨rfl, _⟩ := e; decide +kernel
  · obtain ⟨rfl, rfl, _⟩ := e; decide +kernel
  · obtain ⟨rfl, rfl, rfl, _⟩ := e; decide +kernel
  · obtain ⟨rfl, rfl, rfl, rfl, _⟩ := e; decide +kernel
  · obtain ⟨rfl, rfl, rfl, rfl, rfl, _⟩ := e; decide +kernel

end Verif.Props
