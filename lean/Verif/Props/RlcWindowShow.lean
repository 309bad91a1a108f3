import Verif.Rlc.WindowShow
import Verif.Props.RlcUlWindow
import Verif.Props.RlcDlWindow
/-!
# C196: what the uplink window says about its blocks; C197: the bitmap of EGPRS
-/
namespace Verif.Props
open Verif Verif.Rlc Verif.Spec

/-! ## C196 -/

/-- The blocks sent and not all acknowledged up to them: from the oldest one not acknowledged on. -/
def openBlocks (h : UlNotes) : List Nat := (List.range (h.sent - h.base)).map (h.base + ·)

/-- The letter that fits the latest news about a block. -/
def LetterFits (c : Char) : News → Prop
  | .acked => c = 'A'
  | .missing => c = 'N'
  | .sent => c = '?' ∨ c = 'X'

theorem range_succ_map (n : Nat) (f : Nat → Nat) : (List.range (n + 1)).map f = f 0 :: (List.range n).map (fun i => f (i + 1)) := by
  rw [List.range_succ_eq_map]
  simp [Function.comp_def]

theorem loops_spec (w : UlWin) (s : Nat) (hs : w.vs = s % 128) : ∀ (d n f : Nat), n + d = s → d ≤ 127 → d < f →
    w.countLoop f (n % 128) = ((List.range d).map (n + ·)).countP (fun m => decide (w.vb (m % 128) ≠ .acked)) ∧
    w.showLoop f (n % 128) = ((List.range d).map (n + ·)).map (fun m => showChar (w.vb (m % 128)))
  | 0, n, f + 1, hn, _, _ => by
    have : n % 128 = w.vs := by rw [hs, ← hn]; simp
    simp [UlWin.countLoop, UlWin.showLoop, this]
  | d + 1, n, f + 1, hn, hd, hf => by
    have hne : n % 128 ≠ w.vs := by rw [hs]; omega
    have ih := loops_spec w s hs d (n + 1) f (by omega) (by omega) (by omega)
    have e : ((List.range (d + 1)).map (n + ·)) = n :: ((List.range d).map (n + 1 + ·)) := by
      rw [range_succ_map]
      congr 1
      apply List.map_congr_left
      intro a _
      omega
    rw [e]
    simp only [UlWin.countLoop, UlWin.showLoop, hne, if_false, state_mod, modSns_succ, ih.1, ih.2, List.map_cons,
      List.countP_cons]
    constructor
    · by_cases hx : w.vb (n % 128) = .acked <;> simp [hx, Nat.add_comm]
    · trivial

/-- **C196.** After every history of requests to send and of Packet Uplink Ack/Nack messages: the number of blocks not
acknowledged that the window counts is the number of blocks sent about which the latest news is not that they have
arrived; the letters shown, at most 64, are one for each block from the oldest one not acknowledged on, in order, and
each fits the latest news about its block. -/
theorem c196_window_says (es : List UlEv) (hwf : ∀ e ∈ es, WfUlEv e) :
    ∃ w h, observe es (UlWin.init, UlNotes.init) = some (w, h) ∧
      w.countUnacked = (List.range h.sent).countP (fun n => decide (h.news n ≠ .acked)) ∧
      w.showState.length = h.sent - h.base ∧ w.showState.length ≤ 64 ∧
      ∀ i, i < h.sent - h.base → ∃ c, w.showState[i]? = some c ∧ LetterFits c (h.news (h.base + i)) := by
  obtain ⟨w, h, ho, i⟩ := observe_inv es _ _ UlInv.init hwf
  have hb := base_spec h
  have hle := i.le
  obtain ⟨hc, hsw⟩ := loops_spec w h.sent i.vs (h.sent - h.base) h.base 128 (by omega) (by omega) (by omega)
  have hlen : w.showState.length = h.sent - h.base := by
    unfold UlWin.showState
    rw [i.va]
    show (w.showLoop 128 _).length = _
    rw [hsw]
    simp
  refine ⟨w, h, ho, ?_, hlen, by omega, ?_⟩
  · unfold UlWin.countUnacked
    rw [i.va]
    show w.countLoop 128 _ = _
    rw [hc]
    have hsplit : List.range h.sent = List.range h.base ++ (List.range (h.sent - h.base)).map (h.base + ·) := by
      rw [← List.range_add]
      congr 1
      omega
    rw [hsplit, List.countP_append]
    have h0 : (List.range h.base).countP (fun n => decide (h.news n ≠ .acked)) = 0 := by
      rw [List.countP_eq_zero]
      intro n hn
      simp [hb.2.1 n (List.mem_range.mp hn)]
    rw [h0, Nat.zero_add]
    apply List.countP_congr
    intro n hn
    obtain ⟨k, hk, rfl⟩ := List.mem_map.mp hn
    have hk := List.mem_range.mp hk
    have := (i.agrees (h.base + k) (by omega) (by omega)).acked_iff
    simp [this]
  · intro k hk
    refine ⟨showChar (w.vb ((h.base + k) % 128)), ?_, ?_⟩
    · unfold UlWin.showState
      rw [i.va]
      show (w.showLoop 128 _)[k]? = _
      rw [hsw]
      simp [hk]
    · have := i.agrees (h.base + k) (by omega) (by omega)
      revert this
      cases w.vb ((h.base + k) % 128) <;> cases h.news (h.base + k) <;> simp [Agrees, LetterFits, showChar]

/-- Such a history: five blocks are sent, 0 and 2 have arrived, 1 is missing. -/
example :
    let c : UlTxCtx := ⟨false, true, false⟩
    let d : UlAckDesc := ⟨false, 3, [0, 0, 0, 0, 0, 0, 0, 0b101]⟩
    (∀ e ∈ List.replicate 5 (UlEv.rts c) ++ [.ackNack d], WfUlEv e) ∧
    (match observe (List.replicate 5 (.rts c) ++ [.ackNack d]) (UlWin.init, UlNotes.init) with
      | some (w, _) => w.countUnacked == 3 && w.showState == ['N', 'A', '?', '?']
      | none => false) = true := by
  refine ⟨by intro e he; simp at he; rcases he with rfl | rfl <;> first | trivial | exact (show (3 : Nat) < 128 by decide), by decide +kernel⟩

/-! ## C197 -/

/-- The bitmap for EGPRS as TS 44.060 9.1.8.2.2 has it: one bit for every block from V(Q) + 1 up to V(R) - 1, which says
whether the block has been received. -/
def EgprsBitmap (h : List Nat) (bits : List Bool) : Prop :=
  ∃ q r, LowestMissing h q ∧ OneAboveHighest h r ∧ bits.length = r - (q + 1) ∧
    ∀ i, i < r - (q + 1) → (bits[i]? = some true ↔ q + 1 + i ∈ h)

/-- **C197**, full statement. -/
def C197Statement : Prop := ∀ h, RespectsWindow h → NoLongGap h → EgprsBitmap h (dlAfter h).rbbEgprs

theorem rbbEgLoop_nowrap (w : DlWin) (hv : w.vr < 128) : ∀ (f k : Nat), k ≤ w.vr → w.vr ≤ k + f →
    w.rbbEgLoop f k = (List.range (w.vr - k)).map fun i => w.isReceivedVn (k + i)
  | 0, k, h1, h2 => by
    have : w.vr - k = 0 := by omega
    simp [DlWin.rbbEgLoop, this]
  | f + 1, k, h1, h2 => by
    unfold DlWin.rbbEgLoop
    by_cases hk : k < w.vr
    · rw [if_pos hk]
      have hm : modSns (k + 1) = k + 1 := by rw [modSns_eq]; omega
      rw [hm, rbbEgLoop_nowrap w hv f (k + 1) (by omega) (by omega)]
      obtain ⟨d, hd⟩ : ∃ d, w.vr - k = d + 1 := ⟨w.vr - k - 1, by omega⟩
      have hd' : w.vr - (k + 1) = d := by omega
      rw [hd, hd', List.range_succ_eq_map]
      simp [Function.comp_def]
      intro a _
      congr 1
      omega
    · rw [if_neg hk]
      have : w.vr - k = 0 := by omega
      simp [this]

/-- **C197** (partial): it holds as long as V(R) has not passed from 127 to 0 without V(Q) having done so. -/
theorem c197_partial (h : List Nat) (hw : RespectsWindow h) (hg : NoLongGap h)
    (hq : (dlAfter h).vq ≤ (dlAfter h).vr) : EgprsBitmap h (dlAfter h).rbbEgprs := by
  obtain ⟨q, r, c⟩ := after_complete h hw hg
  generalize dlAfter h = w at c hq
  have h1 := c.qr
  have h2 := c.rq
  have h3 := c.vq
  have h4 := c.vr
  refine ⟨q, r, ⟨c.miss, c.low⟩, c.top, ?_⟩
  have hl : w.rbbEgprs = (List.range (w.vr - (w.vq + 1))).map fun i => w.isReceivedVn (w.vq + 1 + i) := by
    unfold DlWin.rbbEgprs
    by_cases he : w.vq + 1 ≤ w.vr
    · exact rbbEgLoop_nowrap w (by omega) ws (w.vq + 1) he (by simp only [ws]; omega)
    · have : w.vr - (w.vq + 1) = 0 := by omega
      rw [this]
      show w.rbbEgLoop (63 + 1) _ = _
      unfold DlWin.rbbEgLoop
      rw [if_neg (by omega)]
      rfl
  have hn : w.vr - (w.vq + 1) = r - (q + 1) := by omega
  rw [hn] at hl
  refine ⟨by rw [hl]; simp, ?_⟩
  intro i hi
  rw [hl, List.getElem?_map, List.getElem?_range hi]
  have e : (w.vq + 1 + i) = (q + 1 + i) % 128 := by omega
  simp only [Option.map_some, Option.some.injEq]
  rw [e, isReceivedVn_iff]
  exact ⟨fun x => c.rcvd _ (by omega) (by omega) x, fun x => c.all _ x (by omega)⟩

/-- Blocks 0 to 126 and 129 arrive. -/
def wrapped : List Nat := List.range 127 ++ [129]

theorem wrapped_split {p s : List Nat} {n : Nat} (e : wrapped = p ++ n :: s) :
    p = List.range n ∨ p = List.range 127 ∧ n = 129 := by
  have hl : p.length < 128 := by
    have := congrArg List.length e
    simp [wrapped] at this
    omega
  have h1 : wrapped[p.length]? = some n := by rw [e]; simp
  have h3 : wrapped.take p.length = p := by rw [e]; simp
  by_cases hp : p.length < 127
  · left
    unfold wrapped at h1 h3
    rw [List.getElem?_append_left (by simpa using hp), List.getElem?_range hp] at h1
    have h2 : n = p.length := by simpa using h1.symm
    rw [← h3, h2, List.take_append_of_le_length (by simp; omega), List.take_range]
    congr 1
    omega
  · right
    have hp : p.length = 127 := by omega
    rw [hp] at h1 h3
    refine ⟨?_, ?_⟩
    · rw [← h3]; decide +kernel
    · have : wrapped[127]? = some 129 := by decide +kernel
      rw [this] at h1
      injection h1 with h1
      exact h1.symm

theorem wrapped_ok : RespectsWindow wrapped ∧ NoLongGap wrapped := by
  constructor
  · intro p n s e q hq
    rcases wrapped_split e with h | ⟨h, rfl⟩ <;> rw [h] at hq <;> have := lowest_unique hq (range_lowest _) <;> omega
  · intro p n s e r hr
    rcases wrapped_split e with h | ⟨h, rfl⟩ <;> rw [h] at hr <;> have := oneAbove_unique hr (range_above _) <;> omega

/-- **C197 is violated**: the numbers are compared without regard to their being counted modulo 128.  Blocks 0 to 126 and
129 arrive; the bitmap is empty instead of saying that 128 is missing and 129 has arrived. -/
theorem c197_violated : ¬ C197Statement := by
  intro h
  obtain ⟨q, r, h1, h2, h3, -⟩ := h wrapped wrapped_ok.1 wrapped_ok.2
  have hq : q = 127 := lowest_unique h1 ⟨by decide +kernel, fun n hn => by simp [wrapped]; omega⟩
  have hr : r = 130 := oneAbove_unique h2 ⟨by decide +kernel, Or.inr (by decide +kernel)⟩
  subst hq hr
  revert h3
  decide +kernel

/-- The hypotheses of `c197_partial` are met, and the bitmap is not empty. -/
example : (dlAfter [0, 2, 2, 1, 5, 7]).vq ≤ (dlAfter [0, 2, 2, 1, 5, 7]).vr ∧
    (dlAfter [0, 2, 2, 1, 5, 7]).rbbEgprs = [false, true, false, true] := by decide +kernel

end Verif.Props
