import Verif.Props.RlcDelivery
import Verif.Spec.DlLink
import Mathlib.Data.List.Forall2

/-!
# Lemmas: the invariant of a downlink transfer over a lossy link
-/
namespace Verif.Rlc

open Verif.Spec Verif.Props

/-- Blocks the receiver knows to have arrived (proof device). -/
def Known (q r : Nat) (w : DlWin) (m : Nat) : Prop := m < q ∨ (m < r ∧ w.vn (m % 128) = .received)

/-- The invariant of the TBF (proof device). -/
structure RxInv (blk : Nat → Block) (h : List Nat) (q r : Nat) (t : DlTbf) : Prop extends TbfInv blk h q r t where
  kept : ∀ m, Known q r t.win m → r ≤ m + 64 → t.blkst (m % 128) = blk m
  fresh : r = 0 → t.blkst 127 = Block.zero

theorem RxInv.init (blk : Nat → Block) : RxInv blk [] 0 0 DlTbf.init :=
  { TbfInv.init blk with
    kept := by
      intro m hm
      rcases hm with hm | hm
      · omega
      · omega
    fresh := fun _ => rfl }

theorem rcv_shape {t t' : DlTbf} {bsn : Nat} {b : Block} {o : RcvOut} (e : t.rcv bsn b = .ok (t', o)) :
    t'.blkst = (if t.win.isInWindow bsn = true ∧ t.win.isReceivedVn bsn = false then upd t.blkst (idx bsn) b else t.blkst) ∧
    o.last = decide (t'.win.vq = t'.win.vr ∧ (t'.blkst (idx (modSns (sub16 t'.win.vr 1)))).data.length ≠ 0 ∧
      (t'.blkst (idx (modSns (sub16 t'.win.vr 1)))).fbi) := by
  have main : ∀ t1 : DlTbf, (do
        let (win2, count) := t1.win.raiseVq
        let (rx, frames) ← assembleAll t1.blkst t1.win.vq count 0 t1.rx
        let lastBlk := t1.blkst (idx (modSns (sub16 win2.vr 1)))
        (Res.ok ({ win := win2, blkst := t1.blkst, rx },
          { frames, last := decide (win2.vq = win2.vr ∧ lastBlk.data.length ≠ 0 ∧ lastBlk.fbi) }) : Res (DlTbf × RcvOut)))
        = .ok (t', o) → t'.blkst = t1.blkst ∧
      o.last = decide (t'.win.vq = t'.win.vr ∧ (t'.blkst (idx (modSns (sub16 t'.win.vr 1)))).data.length ≠ 0 ∧
      (t'.blkst (idx (modSns (sub16 t'.win.vr 1)))).fbi) := by
    intro t1 e
    dsimp only at e
    cases hx : assembleAll t1.blkst t1.win.vq t1.win.raiseVq.2 0 t1.rx with
    | ok v =>
      rw [hx] at e
      obtain ⟨rx, frames⟩ := v
      simp only [Res.bind_ok] at e
      injection e with e
      injection e with e1 e2
      subst e1 e2
      exact ⟨rfl, rfl⟩
    | err x => rw [hx] at e; cases e
    | ub f => rw [hx] at e; cases e
  unfold DlTbf.rcv at e
  cases h1 : t.win.isInWindow bsn with
  | false =>
    simp only [h1, Bool.false_eq_true, not_false_eq_true, if_true, Res.bind_ok] at e
    obtain ⟨a, b⟩ := main _ e
    exact ⟨by simp [a], b⟩
  | true =>
    cases h2 : t.win.isReceivedVn bsn with
    | true =>
      simp only [h1, h2, not_true_eq_false, if_false, if_true, Res.bind_ok] at e
      obtain ⟨a, b⟩ := main _ e
      exact ⟨by simp [a], b⟩
    | false =>
      simp only [h1, h2, not_true_eq_false, if_false, Bool.false_eq_true] at e
      by_cases h3 : b.data.length > 74
      · simp only [h3, if_true] at e
        cases e
      · simp only [h3, if_false] at e
        generalize hT : ({ t with blkst := upd t.blkst (idx bsn) b, win := t.win.receiveBsn bsn } : DlTbf) = t1 at e
        simp only [Res.bind_ok] at e
        obtain ⟨a, b⟩ := main t1 e
        exact ⟨by rw [a, ← hT]; simp, b⟩

/-- The window after a block: nothing, or the block is stored. -/
theorem Sound.rcv_known {h : List Nat} {q r : Nat} {w : DlWin} (s : Sound h q r w) {n : Nat}
    (h1 : n < q + 64) (h2 : r ≤ n + 64) :
    ∃ q' r', q' = q + (w.rcv (n % 128)).2 ∧ Sound (h ++ [n]) q' r' (w.rcv (n % 128)).1 ∧ q ≤ q' ∧ r ≤ r' ∧
      r' ≤ max r (n + 1) ∧ (∀ m, Known q r w m → Known q' r' (w.rcv (n % 128)).1 m) ∧
      (∀ m, Known q' r' (w.rcv (n % 128)).1 m → Known q r w m ∨ m = n ∨ (r ≤ m ∧ w.vn (m % 128) = .received)) := by
  have hqr := s.qr
  have hrq := s.rq
  obtain ⟨r1, sd, hrr, htake, hkey⟩ := s.rcv h1 (by omega)
  by_cases hin : q ≤ n
  · by_cases hrec : w.vn (n % 128) = .received
    · have e : w.rcv (n % 128) = w.raiseVq := by
        simp only [DlWin.rcv, (isInWindow_iff s.vq h1 (by omega)).2 hin, (isReceivedVn_iff n).2 hrec, not_true_eq_false,
          if_false, if_true]
      rw [e, s.raiseVq_quiet] at sd ⊢
      have : r1 = r := by have a := sd.vr; have b := s.vr; have := sd.qr; have := sd.rq; simp at *; omega
      subst this
      exact ⟨q, r1, rfl, sd, by omega, by omega, by omega, fun _ x => x, fun _ x => Or.inl x⟩
    · have e : w.rcv (n % 128) = (w.receiveBsn (n % 128)).raiseVq := by
        have : w.isReceivedVn (n % 128) ≠ true := fun hh => hrec ((isReceivedVn_iff n).1 hh)
        simp only [DlWin.rcv, (isInWindow_iff s.vq h1 (by omega)).2 hin, not_true_eq_false, if_false, this,
          Bool.false_eq_true]
      rw [e] at sd htake hkey ⊢
      obtain ⟨r', b1, b2, b3, b4⟩ := receiveBsn_spec s h1 hin
      generalize w.receiveBsn (n % 128) = w1 at b1 b2 b4 sd htake hkey
      have hr' : r ≤ r' ∧ r' ≤ q + 64 ∧ r' ≤ max r (n + 1) ∧ r' ≤ r + 63 := by
        rw [b3]; split <;> omega
      obtain ⟨q', a1, a2, a3, a4, a5, a6⟩ := raiseVqLoop_spec sns q r' w1 (b2.trans s.vq) b1 (by omega) (by omega)
        (by simp [sns]; omega)
      have hq' : q + w1.raiseVq.2 = q' := by
        show q + (w1.raiseVqLoop sns).2 = q'
        omega
      have hw : w1.raiseVq.1 = { w1 with vq := q' % 128 } := a4
      rw [hq'] at sd htake
      have hrr : r1 = r' := by
        have e1 : w1.vr = r1 % 128 := by have := sd.vr; rw [hw] at this; exact this
        have e2 := sd.qr
        have e3 := sd.rq
        omega
      subst hrr
      refine ⟨q', r1, hq'.symm, sd, by omega, by omega, hr'.2.2.1, ?_, ?_⟩
      · intro m hm
        rcases hm with hm | ⟨hm1, hm2⟩
        · exact Or.inl (by omega)
        · by_cases hmq : m < q'
          · exact Or.inl hmq
          · refine Or.inr ⟨by omega, ?_⟩
            rw [hw]
            show w1.vn (m % 128) = .received
            rw [b4]
            refine ⟨Or.inr hm2, ?_, ?_⟩
            · intro m' g1 g2 g3; omega
            · intro m' g1 g2 g3; omega
      · intro m hm
        rcases hm with hm | ⟨hm1, hm2⟩
        · by_cases hmq : m < q
          · exact Or.inl (Or.inl hmq)
          · rcases htake m (by omega) hm with x | x
            · exact Or.inr (Or.inl x)
            · by_cases hmr : m < r
              · exact Or.inl (Or.inr ⟨hmr, x⟩)
              · exact Or.inr (Or.inr ⟨by omega, x⟩)
        · by_cases hmq : m < q
          · exact Or.inl (Or.inl hmq)
          · have := sd.rq
            rcases hkey m (by omega) (by omega) hm2 with x | ⟨_, x⟩
            · exact Or.inr (Or.inl x)
            · by_cases hmr : m < r
              · exact Or.inl (Or.inr ⟨hmr, x⟩)
              · exact Or.inr (Or.inr ⟨by omega, x⟩)
  · have e : w.rcv (n % 128) = w.raiseVq := by
      have : w.isInWindow (n % 128) ≠ true := fun hh => hin ((isInWindow_iff s.vq h1 (by omega)).1 hh)
      simp only [DlWin.rcv, this, not_false_eq_true, if_true, Bool.false_eq_true]
    rw [e, s.raiseVq_quiet] at sd ⊢
    have : r1 = r := by have a := sd.vr; have b := s.vr; have := sd.qr; have := sd.rq; simp at *; omega
    subst this
    exact ⟨q, r1, rfl, sd, by omega, by omega, by omega, fun _ x => x, fun _ x => Or.inl x⟩

theorem RxInv.rcv {blk : Nat → Block} (hp : ProperSender blk) {h : List Nat} {q r : Nat} {t : DlTbf}
    (i : RxInv blk h q r t) {n : Nat} (h1 : n < q + 64) (h2 : r ≤ n + 64) :
    ∃ t' o q' r', t.rcv (n % 128) (blk n) = .ok (t', o) ∧ t'.win = (t.win.rcv (n % 128)).1 ∧
      RxInv blk (h ++ [n]) q' r' t' ∧ q ≤ q' ∧ r ≤ r' ∧ r' ≤ max r (n + 1) ∧
      framesUpTo blk q' = framesUpTo blk q ++ o.frames ∧
      (∀ m, Known q r t.win m → Known q' r' t'.win m) ∧
      (o.last = true ↔ q' = r' ∧ 0 < r' ∧ (blk (r' - 1)).fbi = true) := by
  have hqr := i.win.qr
  obtain ⟨t', o, r1, e1, e2, e3, e4⟩ := i.toTbfInv.rcv hp h1 (by omega)
  obtain ⟨q', r', k1, k2, k3, k4, k5, k6, k7⟩ := i.win.rcv_known h1 h2
  obtain ⟨s1, s2⟩ := rcv_shape e1
  have hrr : r1 = r' := by
    have a := e3.win.vr
    have b := k2.vr
    have := e3.win.qr
    have := e3.win.rq
    have := k2.qr
    have := k2.rq
    rw [e2] at a
    omega
  subst hrr
  rw [← k1] at e3 e4
  rw [← e2] at k2 k6 k7
  have hidx : idx (n % 128) = n % 128 := by rw [idx_eq]; omega
  have hrq' := k2.rq
  have hqr' := k2.qr
  have hrq := i.win.rq
  have hkept : ∀ m, Known q' r1 t'.win m → r1 ≤ m + 64 → t'.blkst (m % 128) = blk m := by
    intro m hm hm64
    have hmr : m < r1 := by
      rcases hm with x | x
      · omega
      · exact x.1
    rw [s1]
    have hold : (Known q r t.win m ∨ (r ≤ m ∧ t.win.vn (m % 128) = .received)) → t.blkst (m % 128) = blk m := by
      intro hx
      rcases hx with hx | ⟨hx1, hx2⟩
      · exact i.kept m hx (by omega)
      · exact i.store m (by omega) (by omega) hx2
    by_cases hc : t.win.isInWindow (n % 128) = true ∧ t.win.isReceivedVn (n % 128) = false
    · rw [if_pos hc, hidx, upd_apply]
      have hnq := (isInWindow_iff i.win.vq h1 (by omega)).1 hc.1
      by_cases hmn : m % 128 = n % 128
      · have : m = n := by omega
        subst this
        simp
      · rw [if_neg hmn]
        rcases k7 m hm with x | x | x
        · exact hold (Or.inl x)
        · subst x; exact absurd rfl hmn
        · exact hold (Or.inr x)
    · rw [if_neg hc]
      rcases k7 m hm with x | x | x
      · exact hold (Or.inl x)
      · subst x
        by_cases hmq : m < q
        · exact hold (Or.inl (Or.inl hmq))
        · have hin := (isInWindow_iff i.win.vq h1 (by omega)).2 (by omega)
          have hrc : t.win.vn (m % 128) = .received := by
            rw [← isReceivedVn_iff]
            cases hx : t.win.isReceivedVn (m % 128) with
            | true => rfl
            | false => exact absurd ⟨hin, hx⟩ hc
          by_cases hmr : m < r
          · exact hold (Or.inl (Or.inr ⟨hmr, hrc⟩))
          · exact hold (Or.inr ⟨by omega, hrc⟩)
      · exact hold (Or.inr x)
  have hfresh : r1 = 0 → t'.blkst 127 = Block.zero := by
    intro h0
    have hr0 : r = 0 := by omega
    rw [s1]
    by_cases hc : t.win.isInWindow (n % 128) = true ∧ t.win.isReceivedVn (n % 128) = false
    · rw [if_pos hc, hidx, upd_apply, if_neg (by omega)]
      exact i.fresh hr0
    · rw [if_neg hc]; exact i.fresh hr0
  refine ⟨t', o, q', r1, e1, e2, { e3 with kept := hkept, fresh := hfresh }, k3, k4, k5, e4, k6, ?_⟩
  rw [s2, decide_eq_true_iff]
  have hvv : t'.win.vq = t'.win.vr ↔ q' = r1 := by
    rw [k2.vq, k2.vr]; omega
  rw [hvv]
  constructor
  · rintro ⟨a, b, c⟩
    subst a
    have h0 : 0 < q' := by
      by_cases hz : q' = 0
      · subst hz
        have : idx (modSns (sub16 t'.win.vr 1)) = 127 := by rw [k2.vr]; decide
        rw [this, hfresh rfl] at b
        exact absurd rfl b
      · omega
    refine ⟨rfl, h0, ?_⟩
    have : idx (modSns (sub16 t'.win.vr 1)) = (q' - 1) % 128 := by
      rw [k2.vr, idx_eq, modSns_eq]; simp only [sub16]; omega
    rw [this, hkept (q' - 1) (Or.inl (by omega)) (by omega)] at c
    exact c
  · rintro ⟨a, b, c⟩
    subst a
    have : idx (modSns (sub16 t'.win.vr 1)) = (q' - 1) % 128 := by
      rw [k2.vr, idx_eq, modSns_eq]; simp only [sub16]; omega
    rw [this, hkept (q' - 1) (Or.inl (by omega)) (by omega)]
    have := hp.size (q' - 1)
    exact ⟨rfl, by omega, c⟩

/-! ## The link -/

/-- What a report was made from (proof device). -/
structure Snap where
  q : Nat
  r : Nat
  known : Nat → Prop

structure Snap.Ok (total : Nat) (s : Snap) : Prop where
  qr : s.q ≤ s.r
  rq : s.r ≤ s.q + 64
  low : ∀ n, n < s.q → s.known n
  below : ∀ n, s.known n → n < s.r
  miss : ¬ s.known s.q
  tot : s.q ≤ total

def Snap.le (a b : Snap) : Prop := a.q ≤ b.q ∧ a.r ≤ b.r ∧ ∀ n, a.known n → b.known n

/-- What a report says of what it was made from. -/
structure Snap.Says (total : Nat) (d : DlReport) (s : Snap) : Prop where
  ssn : d.desc.ssn = s.r % 128
  bits : ∀ k, 1 ≤ k → k ≤ 64 → bitAt d.desc.rbb (64 - k) = true → k ≤ s.r ∧ s.known (s.r - k)
  final : d.final = true ↔ s.q = total

/-- What the receiver knows now. -/
def Snap.now (q r : Nat) (w : DlWin) : Snap := { q, r, known := Known q r w }

/-- The invariant (proof device): `h` blocks arrived, `ns` the blocks under way, `sn` what the reports under way were
made from. -/
structure DlInv (blk : Nat → Block) (window total : Nat) (s : DlLink) (h : List Nat) (q r : Nat) (ns : List Nat)
    (sn : List Snap) : Prop where
  rx : RxInv blk h q r s.ms.t
  given : s.given = framesUpTo blk q
  fin : s.ms.finished = true ↔ q = total
  qt : q ≤ total
  vas : s.net.va ≤ s.net.vs
  vsa : s.net.vs ≤ s.net.va + 64
  vst : s.net.vs ≤ total
  rvs : r ≤ s.net.vs
  down : s.down = wire blk ns
  nsq : ∀ n ∈ ns, n < q + window
  nsv : ∀ n ∈ ns, n < s.net.vs
  nsr : ∀ n ∈ ns, r ≤ n + 64
  nsp : ns.Pairwise fun m n => m < n + 64
  said : List.Forall₂ (Snap.Says total) s.up sn
  ok : ∀ x ∈ sn ++ [Snap.now q r s.ms.t.win], x.Ok total
  chain : (sn ++ [Snap.now q r s.ms.t.win]).Pairwise Snap.le
  acked : ∀ x ∈ sn ++ [Snap.now q r s.ms.t.win], s.net.done = false → ∀ n, s.net.acked n = true → x.known n
  vq : s.net.done = false → ∀ x ∈ sn ++ [Snap.now q r s.ms.t.win], s.net.va ≤ x.q
  alla : ∀ n, n < s.net.va → s.net.acked n = true
  more : s.net.done = false → s.net.va < total
  over : s.net.done = true → q = total
  compl : window ≤ 63 → Complete h q r s.ms.t.win

theorem Snap.now_ok {h : List Nat} {q r : Nat} {w : DlWin} {total : Nat} (s : Sound h q r w) (ht : q ≤ total) :
    (Snap.now q r w).Ok total where
  qr := s.qr
  rq := s.rq
  low := fun n hn => Or.inl hn
  below := fun n hn => by
    have := s.qr
    rcases hn with hn | hn
    · show n < r; omega
    · exact hn.1
  miss := fun hn => by
    rcases hn with hn | hn
    · exact absurd hn (Nat.lt_irrefl q)
    · rcases s.gap with e | e
      · have : q < r := hn.1
        omega
      · exact e hn.2
  tot := ht

theorem DlInv.init {blk : Nat → Block} {window total : Nat} (ht : 0 < total) :
    DlInv blk window total DlLink.init [] 0 0 [] [] where
  rx := RxInv.init blk
  given := by simp [DlLink.init, framesUpTo, piecesUpTo, reassemble]
  fin := by simp [DlLink.init, DlRx.init]; omega
  qt := by omega
  vas := Nat.le_refl _
  vsa := by simp [DlLink.init]
  vst := by simp [DlLink.init]
  rvs := by simp [DlLink.init]
  down := rfl
  nsq := by simp
  nsv := by simp
  nsr := by simp
  nsp := by simp
  said := .nil
  ok := by
    intro x hx
    simp at hx
    subst hx
    exact Snap.now_ok Sound.init (by omega)
  chain := by simp
  acked := by intro x _ _ n hn; cases hn
  vq := by intro _ x _; exact Nat.zero_le _
  alla := by intro n hn; exact absurd hn (Nat.not_lt_zero n)
  more := fun _ => ht
  over := fun h => by cases h
  compl := fun _ => Complete.init

theorem lowestUnacked_spec (acked : Nat → Bool) (k : Nat) : ∀ a, a ≤ lowestUnacked acked k a ∧ lowestUnacked acked k a ≤ a + k ∧
    (∀ n, a ≤ n → n < lowestUnacked acked k a → acked n = true) ∧
    (lowestUnacked acked k a < a + k → acked (lowestUnacked acked k a) = false) := by
  induction k with
  | zero => intro a; simp [lowestUnacked]; intro n _ _; omega
  | succ k ih =>
    intro a
    simp only [lowestUnacked]
    cases h : acked a with
    | true =>
      simp only [if_true]
      obtain ⟨h1, h2, h3, h4⟩ := ih (a + 1)
      refine ⟨by omega, by omega, ?_, fun hx => h4 (by omega)⟩
      intro n hn1 hn2
      by_cases hna : n = a
      · rw [hna]; exact h
      · exact h3 n (by omega) hn2
    | false =>
      simp only [Bool.false_eq_true, if_false]
      exact ⟨by omega, by omega, fun n _ _ => by omega, fun _ => h⟩

variable {blk : Nat → Block} {window total : Nat} {s : DlLink} {h : List Nat} {q r : Nat} {ns : List Nat} {sn : List Snap}

theorem DlInv.send (hw : window ≤ 64) (i : DlInv blk window total s h q r ns sn) {n : Nat}
    (ha : s.Allowed window total (.send n)) :
    DlInv blk window total { s with net := { s.net with vs := max s.net.vs (n + 1) }, down := s.down ++ [(n % 128, blk n)] }
      h q r (ns ++ [n]) sn := by
  obtain ⟨a1, a2, a3, a4, a5⟩ := ha
  have hvq := i.vq a1 (Snap.now q r s.ms.t.win) (by simp)
  have hvq : s.net.va ≤ q := hvq
  have h1 := i.vas
  have h2 := i.vsa
  have h3 := i.vst
  have h4 := i.rvs
  refine { i with vas := ?_, vsa := ?_, vst := ?_, rvs := ?_, down := ?_, nsq := ?_, nsv := ?_, nsr := ?_, nsp := ?_ }
  · simp only; omega
  · simp only; omega
  · simp only; omega
  · simp only; omega
  · simp only [i.down, wire, List.map_append, List.map_cons, List.map_nil]
  · intro m hm
    rcases List.mem_append.1 hm with hm | hm
    · exact i.nsq m hm
    · simp at hm; omega
  · intro m hm
    rcases List.mem_append.1 hm with hm | hm
    · have := i.nsv m hm; simp only; omega
    · simp at hm; simp only; omega
  · intro m hm
    rcases List.mem_append.1 hm with hm | hm
    · exact i.nsr m hm
    · simp at hm; omega
  · rw [List.pairwise_append]
    refine ⟨i.nsp, by simp, ?_⟩
    intro a ha b hb
    have := i.nsv a ha
    simp at hb
    omega

theorem DlInv.downLost (i : DlInv blk window total s h q r ns sn) :
    DlInv blk window total { s with down := s.down.drop 1 } h q r (ns.drop 1) sn := by
  refine { i with down := ?_, nsq := ?_, nsv := ?_, nsr := ?_, nsp := ?_ }
  · simp only [i.down, wire, List.map_drop]
  · exact fun n hn => i.nsq n (List.mem_of_mem_drop hn)
  · exact fun n hn => i.nsv n (List.mem_of_mem_drop hn)
  · exact fun n hn => i.nsr n (List.mem_of_mem_drop hn)
  · exact i.nsp.sublist (List.drop_sublist _ _)

theorem DlInv.upLost (i : DlInv blk window total s h q r ns sn) :
    DlInv blk window total { s with up := s.up.drop 1 } h q r ns (sn.drop 1) := by
  have hsub : ∀ x, x ∈ sn.drop 1 ++ [Snap.now q r s.ms.t.win] → x ∈ sn ++ [Snap.now q r s.ms.t.win] := by
    intro x hx
    rcases List.mem_append.1 hx with hx | hx
    · exact List.mem_append_left _ (List.mem_of_mem_drop hx)
    · exact List.mem_append_right _ hx
  refine { i with said := ?_, ok := ?_, chain := ?_, acked := ?_, vq := ?_ }
  · have := i.said
    revert this
    cases s.up with
    | nil => intro hs; cases hs; exact .nil
    | cons d up => intro hs; cases hs with | cons _ hs => exact hs
  · exact fun x hx => i.ok x (hsub x hx)
  · exact i.chain.sublist ((List.drop_sublist _ _).append (List.Sublist.refl _))
  · exact fun x hx => i.acked x (hsub x hx)
  · exact fun hd x hx => i.vq hd x (hsub x hx)

theorem says_now {h : List Nat} {q r : Nat} {ms : DlRx} {total : Nat} (i : Sound h q r ms.t.win)
    (hf : ms.finished = true ↔ q = total) : (Snap.now q r ms.t.win).Says total ms.report where
  ssn := i.vr
  bits := by
    intro k h1 h2 hb
    have := (ackDesc_bit i.vr h1 h2).1 hb
    by_cases hk : k ≤ r
    · have e : (r + 128 - k) % 128 = (r - k) % 128 := by omega
      rw [e] at this
      refine ⟨hk, Or.inr ⟨?_, this⟩⟩
      show r - k < r
      omega
    · have e : (r + 128 - k) % 128 = r + 128 - k := by omega
      rw [e] at this
      exact absurd this (i.unused _ (by omega) (by omega))
  final := hf

theorem DlInv.report (i : DlInv blk window total s h q r ns sn) :
    DlInv blk window total { s with up := s.up ++ [s.ms.report] } h q r ns (sn ++ [Snap.now q r s.ms.t.win]) := by
  have hsub : ∀ x, x ∈ (sn ++ [Snap.now q r s.ms.t.win]) ++ [Snap.now q r s.ms.t.win] →
      x ∈ sn ++ [Snap.now q r s.ms.t.win] := by
    intro x hx
    rcases List.mem_append.1 hx with hx | hx
    · exact hx
    · exact List.mem_append_right _ hx
  refine { i with said := ?_, ok := ?_, chain := ?_, acked := ?_, vq := ?_ }
  · exact List.rel_append i.said (.cons (says_now i.rx.win i.fin) .nil)
  · exact fun x hx => i.ok x (hsub x hx)
  · rw [List.pairwise_append]
    refine ⟨i.chain, by simp, ?_⟩
    intro a ha b hb
    simp at hb
    subst hb
    rcases List.mem_append.1 ha with ha | ha
    · exact (List.pairwise_append.1 i.chain).2.2 a ha _ (by simp)
    · simp at ha
      subst ha
      exact ⟨Nat.le_refl _, Nat.le_refl _, fun _ x => x⟩
  · exact fun x hx => i.acked x (hsub x hx)
  · exact fun hd x hx => i.vq hd x (hsub x hx)

theorem reported_known {d : DlReport} {x : Snap} (ok : x.Ok total) (hs : x.Says total d) {va vs n : Nat} (h1 : va ≤ x.q)
    (h2 : vs ≤ va + 64) (h3 : va ≤ n) (h4 : n < vs) (h5 : x.r ≤ vs) (hr : reportedReceived d.desc n = true) : x.known n := by
  simp only [reportedReceived, Bool.and_eq_true, decide_eq_true_eq, hs.ssn] at hr
  obtain ⟨⟨a, b⟩, c⟩ := hr
  obtain ⟨e, f⟩ := hs.bits _ a b c
  have g := ok.below _ f
  have := ok.qr
  have := ok.rq
  have hk : x.r - (x.r % 128 + 128 - n % 128) % 128 = n := by omega
  rw [hk] at f
  exact f

theorem DlInv.upArrives (i : DlInv blk window total s h q r ns sn) {d : DlReport} {up : List DlReport} (e : s.up = d :: up) :
    ∃ sn', DlInv blk window total { s with up, net := s.net.hear d } h q r ns sn' ∧ s.net.va ≤ (s.net.hear d).va ∧
      (d.final = true → (s.net.hear d).done = true) := by
  have hs := i.said
  rw [e] at hs
  obtain ⟨x, sn', hx, hsn', rfl⟩ : ∃ x sn', x.Says total d ∧ List.Forall₂ (Snap.Says total) up sn' ∧ sn = x :: sn' := by
    cases hs with
    | cons a b => exact ⟨_, _, a, b, rfl⟩
  have okx := i.ok x (by simp)
  have hch := List.pairwise_cons.1 i.chain
  have hvas := i.vas
  have hvsa := i.vsa
  obtain ⟨l1, l2, l3, l4⟩ := lowestUnacked_spec (s.net.hear d).acked (s.net.vs - s.net.va) s.net.va
  have hva : (s.net.hear d).va = lowestUnacked (s.net.hear d).acked (s.net.vs - s.net.va) s.net.va := rfl
  rw [← hva] at l1 l2 l3 l4
  have hack : (s.net.hear d).done = false → ∀ n, (s.net.hear d).acked n = true → x.known n := by
    intro hd n hn
    simp only [DlNet.hear, Bool.or_eq_false_iff] at hd
    simp only [DlNet.hear, Bool.or_eq_true, Bool.and_eq_true, decide_eq_true_eq, hd.2, Bool.false_eq_true, false_or] at hn
    rcases hn with hn | ⟨⟨a, b⟩, c⟩
    · exact i.acked x (by simp) hd.1 n hn
    · exact reported_known okx hx (i.vq hd.1 x (by simp)) hvsa a b (Nat.le_trans (hch.1 (Snap.now q r s.ms.t.win) (by simp)).2.1 i.rvs) c
  have hq : (s.net.hear d).done = false → (s.net.hear d).va ≤ x.q := by
    intro hd
    have hd' := hd
    simp only [DlNet.hear, Bool.or_eq_false_iff] at hd'
    have := i.vq hd'.1 x (by simp)
    by_cases hc : (s.net.hear d).va ≤ x.q
    · exact hc
    · exact absurd (hack hd _ (l3 x.q this (by omega))) okx.miss
  refine ⟨sn', { i with vas := ?_, vsa := ?_, said := hsn', ok := ?_, chain := hch.2, acked := ?_, vq := ?_, alla := ?_, more := ?_, over := ?_ }, l1, ?_⟩
  · show (s.net.hear d).va ≤ s.net.vs
    omega
  · show s.net.vs ≤ (s.net.hear d).va + 64
    omega
  · exact fun y hy => i.ok y (List.mem_cons_of_mem _ hy)
  · intro y hy hd n hn
    exact (hch.1 y hy).2.2 n (hack hd n hn)
  · intro hd y hy
    exact Nat.le_trans (hq hd) (hch.1 y hy).1
  · intro n hn
    have hn : n < (s.net.hear d).va := hn
    by_cases hnv : n < s.net.va
    · show (s.net.acked n || _) = true
      rw [i.alla n hnv]; rfl
    · exact l3 n (by omega) hn
  · intro hd
    have hqx := hq hd
    have hd' := hd
    simp only [DlNet.hear, Bool.or_eq_false_iff] at hd'
    have : ¬ x.q = total := fun hh => by
      have := hx.final.2 hh
      rw [hd'.2] at this
      cases this
    have := okx.tot
    show (s.net.hear d).va < total
    omega
  · intro hd
    have hd : (s.net.done || d.final) = true := hd
    rw [Bool.or_eq_true] at hd
    rcases hd with hd | hd
    · exact i.over hd
    · have h1 := hx.final.1 hd
      have h2 : x.q ≤ q := (hch.1 (Snap.now q r s.ms.t.win) (by simp)).1
      have := i.qt
      omega
  · intro hf
    show (s.net.done || d.final) = true
    rw [hf, Bool.or_true]

theorem DlInv.downArrives (ht : Transfer blk total) (hw : window ≤ 64) {n : Nat}
    (i : DlInv blk window total s h q r (n :: ns) sn) :
    ∃ s' q' r', s.step blk .downArrives = .ok s' ∧ DlInv blk window total s' (h ++ [n]) q' r' ns sn ∧
      s'.net = s.net ∧ s'.up = s.up := by
  have hd := i.down
  simp only [wire, List.map_cons] at hd
  have hn1 := i.nsq n (by simp)
  have hn2 := i.nsr n (by simp)
  have hn3 := i.nsv n (by simp)
  obtain ⟨t', o, q', r', e1, e2, e3, e4, e5, e6, e7, e8, e9⟩ := i.rx.rcv ht.proper (n := n) (by omega) hn2
  have hqr' := e3.win.qr
  have hvst := i.vst
  have hrvs := i.rvs
  have hqt' : q' ≤ total := by omega
  have hle : Snap.le (Snap.now q r s.ms.t.win) (Snap.now q' r' t'.win) := ⟨e4, e5, e8⟩
  have hch := List.pairwise_append.1 i.chain
  have hnp := List.pairwise_cons.1 i.nsp
  refine ⟨_, q', r', ?_, (?_ : DlInv blk window total
    { s with ms := { t := t', finished := s.ms.finished || o.last }, down := wire blk ns, given := s.given ++ o.frames }
    (h ++ [n]) q' r' ns sn), rfl, rfl⟩
  · simp only [DlLink.step, hd, DlRx.rcv, e1, Res.bind_ok]
    rfl
  · refine { i with rx := e3, given := ?_, fin := ?_, qt := hqt', rvs := by simp only; omega, down := rfl, nsq := ?_, nsv := ?_, nsr := ?_, nsp := hnp.2, ok := ?_, chain := ?_, acked := ?_, vq := ?_, over := ?_, compl := ?_ }
    · simp only [i.given, e7]
    · simp only [Bool.or_eq_true, i.fin, e9]
      constructor
      · rintro (x | ⟨x, y, z⟩)
        · omega
        · have := (ht.fbi (r' - 1) (by omega)).1 z
          omega
      · intro x
        by_cases hq : q = total
        · exact Or.inl hq
        · right
          have := ht.some
          have hr : r' = total := by omega
          refine ⟨by omega, by omega, (ht.fbi (r' - 1) (by omega)).2 (by omega)⟩
    · intro m hm
      have := i.nsq m (by simp [hm])
      omega
    · exact fun m hm => i.nsv m (by simp [hm])
    · intro m hm
      have := i.nsr m (by simp [hm])
      have := hnp.1 m hm
      omega
    · intro x hx
      rcases List.mem_append.1 hx with hx | hx
      · exact i.ok x (List.mem_append_left _ hx)
      · simp at hx
        subst hx
        exact Snap.now_ok e3.win hqt'
    · rw [List.pairwise_append]
      refine ⟨hch.1, by simp, ?_⟩
      intro a ha b hb
      simp at hb
      subst hb
      have := hch.2.2 a ha _ (List.mem_singleton_self _)
      exact ⟨Nat.le_trans this.1 hle.1, Nat.le_trans this.2.1 hle.2.1, fun n hn => hle.2.2 n (this.2.2 n hn)⟩
    · intro x hx hdn m hm
      rcases List.mem_append.1 hx with hx | hx
      · exact i.acked x (List.mem_append_left _ hx) hdn m hm
      · simp at hx
        subst hx
        exact hle.2.2 m (i.acked _ (by simp) hdn m hm)
    · intro hdn x hx
      rcases List.mem_append.1 hx with hx | hx
      · exact i.vq hdn x (List.mem_append_left _ hx)
      · simp at hx
        subst hx
        exact Nat.le_trans (i.vq hdn (Snap.now q r s.ms.t.win) (by simp)) e4
    · intro hdn
      have := i.over hdn
      omega
    · intro hw63
      have hc := i.compl hw63
      have hqr := hc.qr
      have hrq := hc.rq
      obtain ⟨q2, r2, c2⟩ := hc.rcv (n := n) (by omega) (by omega) (by omega)
      rw [← e2] at c2
      have hr2 : r2 = r' := by
        have a1 := c2.vr
        have a2 := e3.win.vr
        have a3 : r ≤ r2 := by
          rcases hc.top.2 with x | x
          · omega
          · have := c2.top.1 (r - 1) (List.mem_append_left _ x); omega
        have a4 : r2 ≤ max r (n + 1) := by
          rcases c2.top.2 with x | x
          · omega
          · rcases List.mem_append.1 x with x | x
            · have := hc.top.1 _ x; omega
            · simp at x; omega
        omega
      subst hr2
      have hq2 : q2 = q' := by
        have a1 := c2.vq
        have a2 := e3.win.vq
        have a3 := c2.qr
        have a4 : q ≤ q2 := by
          by_cases hx : q ≤ q2
          · exact hx
          · exact absurd (List.mem_append_left _ (hc.low q2 (by omega))) c2.miss
        omega
      subst hq2
      exact c2

end Verif.Rlc
