import Verif.Props.RlcDlWindow
import Verif.Props.RlcParse

/-!
# C21: delivery of LLC frames by a downlink TBF
-/
namespace Verif.Props

open Verif Verif.Rlc Verif.Spec

/-- What arrives when the blocks with the numbers `h` arrive. -/
def wire (blk : Nat → Block) (h : List Nat) : List (Nat × Block) := h.map fun n => (n % 128, blk n)

/-- The pieces of LLC PDUs in one block (none, if it is malformed). -/
def blockPieces (b : Block) : List Piece := (pieces false b.e b.fbi b.data).getD []

/-- The pieces of LLC PDUs in the first `k` blocks of a sender. -/
def piecesUpTo (blk : Nat → Block) (k : Nat) : List Piece := (List.range k).flatMap fun n => blockPieces (blk n)

/-- The LLC PDUs in the first `k` blocks of a sender, in order. -/
def framesUpTo (blk : Nat → Block) (k : Nat) : List Octets := (reassemble [] (piecesUpTo blk k)).1

/-- What the network has to keep to: the payload sizes of GPRS, fewer than 16 PDUs in a block, no PDU longer
than the maximum length of an LLC PDU. -/
structure ProperSender (blk : Nat → Block) : Prop where
  size : ∀ n, 17 ≤ (blk n).data.length ∧ (blk n).data.length ≤ 74
  few : ∀ n, (blockPieces (blk n)).length < 16
  short : ∀ k, (∀ f ∈ framesUpTo blk k, f.length ≤ 1543) ∧ (reassemble [] (piecesUpTo blk k)).2.length ≤ 1543

/-- A transfer of `total` blocks: the blocks are well formed and exactly the last of them is marked so. -/
structure Transfer (blk : Nat → Block) (total : Nat) : Prop where
  proper : ProperSender blk
  some : 0 < total
  fbi : ∀ n, n < total → ((blk n).fbi = true ↔ n + 1 = total)

/-! ## Reassembly in the model -/

/-- No PDU under reassembly gets longer than the maximum (proof device). -/
def Fits : Octets → List Piece → Prop
  | _, [] => True
  | p, (x, c) :: s => p.length + x.length ≤ 1543 ∧ Fits (if c then [] else p ++ x) s

theorem assembleLoop_spec (data : Octets) : ∀ (cs : List Chunk) (pos : Nat) (rx : Option Octets),
    Tiles data.length pos cs → Fits (rx.getD []) (cs.map (content data)) →
    ∃ rx', assembleLoop data cs rx = .ok (rx', (reassemble (rx.getD []) (cs.map (content data))).1) ∧
      rx'.getD [] = (reassemble (rx.getD []) (cs.map (content data))).2 := by
  intro cs
  induction cs with
  | nil => intro pos rx _ _; exact ⟨rx, rfl, rfl⟩
  | cons c cs ih =>
    intro pos rx ht hf
    cases ht with
    | cons h1 h2 =>
      have hb : ∀ (cs : List Chunk) (pos : Nat), Tiles data.length pos cs → pos ≤ data.length := by
        intro cs
        induction cs with
        | nil => intro pos h; cases h; assumption
        | cons c cs ih =>
          intro pos h
          cases h with
          | cons _ h => have := ih _ h; omega
      have hle := hb _ _ h2
      simp only [List.map_cons, content, Fits, List.length_take, List.length_drop] at hf
      obtain ⟨hf1, hf2⟩ := hf
      have hmin : min c.length (data.length - c.offset) = c.length := by omega
      rw [hmin] at hf1
      simp only [assembleLoop, List.map_cons, content]
      rw [rdN_of_le (by omega)]
      have hmax : ¬ (rx.getD []).length + c.length > llcPduMaxLen := by
        have : llcPduMaxLen = 1543 := rfl
        omega
      simp only [Res.bind_ok, hmax, if_false]
      cases hc : c.complete with
      | true =>
        simp only [if_true, reassemble]
        obtain ⟨rx', g1, g2⟩ := ih _ none h2 (by simpa [hc] using hf2)
        refine ⟨rx', ?_, g2⟩
        rw [g1]
        rfl
      | false =>
        simp only [Bool.false_eq_true, if_false, reassemble]
        exact ih _ (some _) h2 (by simpa [hc] using hf2)

theorem assemble_spec (b : Block) (rx : Option Octets) (hs : 17 ≤ b.data.length) (hfew : (blockPieces b).length < 16)
    (hf : Fits (rx.getD []) (blockPieces b)) :
    ∃ rx', assemble b rx = .ok (rx', (reassemble (rx.getD []) (blockPieces b)).1) ∧
      rx'.getD [] = (reassemble (rx.getD []) (blockPieces b)).2 := by
  have h := c20_parser_exact b.e b.fbi b.data hs
  unfold assemble
  revert h
  rcases hp : fromDlData b.e b.fbi b.data 16 with cs | e | f
  · rintro ⟨⟨start, ht⟩, hcs | ⟨hcs, hn⟩⟩
    · have e : blockPieces b = cs.map (content b.data) := by simp [blockPieces, hcs]
      rw [e] at hf ⊢
      exact assembleLoop_spec b.data cs start rx ht hf
    · have e : blockPieces b = [] := by simp [blockPieces, hn]
      subst hcs
      rw [e]
      exact ⟨rx, rfl, rfl⟩
  · rintro (hn | ⟨ps, h1, h2⟩)
    · have e : blockPieces b = [] := by simp [blockPieces, hn]
      rw [e]
      exact ⟨rx, rfl, rfl⟩
    · have e : blockPieces b = ps := by simp [blockPieces, h1]
      rw [e] at hfew
      omega
  · exact False.elim

theorem reassemble_app (s2 : List Piece) : ∀ (s1 : List Piece) (p : Octets),
    reassemble p (s1 ++ s2) = ((reassemble p s1).1 ++ (reassemble (reassemble p s1).2 s2).1,
      (reassemble (reassemble p s1).2 s2).2) := by
  intro s1
  induction s1 with
  | nil => intro p; simp [reassemble]
  | cons x s1 ih =>
    intro p
    obtain ⟨x, b⟩ := x
    cases b with
    | true => simp only [List.cons_append, reassemble, ih]
    | false => simp only [List.cons_append, reassemble, ih]

theorem fits_app (s2 : List Piece) : ∀ (s1 : List Piece) (p : Octets),
    Fits p (s1 ++ s2) → Fits p s1 ∧ Fits (reassemble p s1).2 s2 := by
  intro s1
  induction s1 with
  | nil => intro p h; exact ⟨trivial, h⟩
  | cons x s1 ih =>
    intro p h
    obtain ⟨x, b⟩ := x
    cases b with
    | true =>
      obtain ⟨h1, h2⟩ := h
      simp only [if_true] at h2
      obtain ⟨a, c⟩ := ih [] h2
      exact ⟨⟨h1, by simpa using a⟩, by simpa only [reassemble] using c⟩
    | false =>
      obtain ⟨h1, h2⟩ := h
      simp only [Bool.false_eq_true, if_false] at h2
      obtain ⟨a, c⟩ := ih (p ++ x) h2
      exact ⟨⟨h1, by simpa using a⟩, by simpa only [reassemble] using c⟩

/-- The PDU in progress is the start of the next PDU to come out, or of what is left. -/
theorem progress_le : ∀ (s : List Piece) (p : Octets),
    (∀ f ∈ (reassemble p s).1, f.length ≤ 1543) → (reassemble p s).2.length ≤ 1543 → p.length ≤ 1543 := by
  intro s
  induction s with
  | nil => intro p _ h; exact h
  | cons x s ih =>
    intro p h1 h2
    obtain ⟨x, b⟩ := x
    cases b with
    | true =>
      have := h1 (p ++ x) (by simp [reassemble])
      simp at this; omega
    | false =>
      have := ih (p ++ x) (by simpa only [reassemble] using h1) (by simpa only [reassemble] using h2)
      simp at this; omega

theorem fits_of_short : ∀ (s : List Piece) (p : Octets),
    (∀ f ∈ (reassemble p s).1, f.length ≤ 1543) → (reassemble p s).2.length ≤ 1543 → Fits p s := by
  intro s
  induction s with
  | nil => intro p _ _; trivial
  | cons x s ih =>
    intro p h1 h2
    obtain ⟨x, b⟩ := x
    cases b with
    | true =>
      refine ⟨?_, ?_⟩
      · have := h1 (p ++ x) (by simp [reassemble])
        simpa using this
      · simp only [if_true]
        exact ih [] (fun f hf => h1 f (by simp [reassemble, hf])) (by simpa only [reassemble] using h2)
    | false =>
      simp only [reassemble] at h1 h2
      refine ⟨by have := progress_le s (p ++ x) h1 h2; simpa using this, ?_⟩
      simp only [Bool.false_eq_true, if_false]
      exact ih _ h1 h2

theorem piecesUpTo_add (blk : Nat → Block) (q k : Nat) :
    piecesUpTo blk (q + k) = piecesUpTo blk q ++ (List.range k).flatMap fun j => blockPieces (blk (q + j)) := by
  simp only [piecesUpTo, List.range_add, List.flatMap_append, List.flatMap_map]

theorem assembleAll_spec (blkst : Nat → Block) (blk : Nat → Block) (q vqBeg : Nat) (hv : vqBeg = q % 128)
    (hs : ∀ n, 17 ≤ (blk n).data.length) (hfew : ∀ n, (blockPieces (blk n)).length < 16) :
    ∀ (k i : Nat) (rx : Option Octets),
    (∀ j, i ≤ j → j < i + k → blkst ((q + j) % 128) = blk (q + j)) →
    Fits (rx.getD []) ((List.range k).flatMap fun j => blockPieces (blk (q + i + j))) →
    ∃ rx', assembleAll blkst vqBeg k i rx = .ok (rx', (reassemble (rx.getD [])
        ((List.range k).flatMap fun j => blockPieces (blk (q + i + j)))).1) ∧
      rx'.getD [] = (reassemble (rx.getD []) ((List.range k).flatMap fun j => blockPieces (blk (q + i + j)))).2 := by
  intro k
  induction k with
  | zero => intro i rx _ _; exact ⟨rx, rfl, rfl⟩
  | succ k ih =>
    intro i rx hb hf
    have e : (List.range (k + 1)).flatMap (fun j => blockPieces (blk (q + i + j))) =
        blockPieces (blk (q + i)) ++ (List.range k).flatMap (fun j => blockPieces (blk (q + (i + 1) + j))) := by
      rw [List.range_succ_eq_map, List.flatMap_cons, List.flatMap_map]
      have : ∀ j, q + i + Nat.succ j = q + (i + 1) + j := fun j => by omega
      simp only [this, Nat.add_zero]
    rw [e] at hf ⊢
    obtain ⟨f1, f2⟩ := fits_app _ _ _ hf
    have hidx : idx (modSns (vqBeg + i)) = (q + i) % 128 := by rw [idx_eq, modSns_eq, hv]; omega
    obtain ⟨rx1, a1, a2⟩ := assemble_spec (blk (q + i)) rx (hs _) (hfew _) f1
    rw [← a2] at f2
    obtain ⟨rx2, b1, b2⟩ := ih (i + 1) rx1 (fun j h1 h2 => hb j (by omega) (by omega)) f2
    refine ⟨rx2, ?_, ?_⟩
    · simp only [assembleAll]
      rw [hidx, hb i (by omega) (by omega), a1]
      simp only [Res.bind_ok]
      rw [b1]
      simp only [Res.bind_ok, reassemble_app, a2]
    · rw [b2, reassemble_app, a2]

/-! ## The TBF -/

/-- What is true of the TBF after `q` blocks have been taken out (proof device). -/
structure TbfInv (blk : Nat → Block) (h : List Nat) (q r : Nat) (t : DlTbf) : Prop where
  win : Sound h q r t.win
  store : ∀ m, q ≤ m → m < r + 64 → t.win.vn (m % 128) = .received → t.blkst (m % 128) = blk m
  rx : t.rx.getD [] = (reassemble [] (piecesUpTo blk q)).2

theorem TbfInv.rcv {blk : Nat → Block} (hp : ProperSender blk) {h : List Nat} {q r : Nat} {t : DlTbf}
    (i : TbfInv blk h q r t) {n : Nat} (h1 : n < q + 64) (h2 : q ≤ n + 64) :
    ∃ t' o r', t.rcv (n % 128) (blk n) = .ok (t', o) ∧ t'.win = (t.win.rcv (n % 128)).1 ∧
      TbfInv blk (h ++ [n]) (q + (t.win.rcv (n % 128)).2) r' t' ∧
      framesUpTo blk (q + (t.win.rcv (n % 128)).2) = framesUpTo blk q ++ o.frames := by
  obtain ⟨r', s', hrr, htake, hkey⟩ := i.win.rcv h1 h2
  have hidx : idx (n % 128) = n % 128 := by rw [idx_eq]; omega
  have hqr := i.win.qr
  have hrq := i.win.rq
  -- the block is not stored
  have quiet : (t.win.rcv (n % 128)) = (t.win, 0) →
      t.rcv (n % 128) (blk n) = (Res.ok t >>= fun t1 : DlTbf => do
        let (win2, count) := t1.win.raiseVq
        let (rx, frames) ← assembleAll t1.blkst t1.win.vq count 0 t1.rx
        let lastBlk := t1.blkst (idx (modSns (sub16 win2.vr 1)))
        .ok ({ win := win2, blkst := t1.blkst, rx },
          { frames, last := decide (win2.vq = win2.vr ∧ lastBlk.data.length ≠ 0 ∧ lastBlk.fbi) })) →
      ∃ t' o r', t.rcv (n % 128) (blk n) = .ok (t', o) ∧ t'.win = (t.win.rcv (n % 128)).1 ∧
        TbfInv blk (h ++ [n]) (q + (t.win.rcv (n % 128)).2) r' t' ∧
        framesUpTo blk (q + (t.win.rcv (n % 128)).2) = framesUpTo blk q ++ o.frames := by
    intro e1 e2
    rw [e2]
    simp only [Res.bind_ok, i.win.raiseVq_quiet, assembleAll]
    refine ⟨_, _, r', rfl, by rw [e1], ?_, by rw [e1]; simp⟩
    rw [e1] at s' hkey ⊢
    refine ⟨s', ?_, i.rx⟩
    intro m hm1 hm2 hm3
    have a1 := s'.qr
    have a2 := s'.rq
    have a3 := s'.vr
    have a4 := i.win.vr
    have : r' = r := by
      have : t.win.vr = r' % 128 := a3
      have : r ≤ r' := hrr
      simp only [Nat.add_zero] at a1 a2
      omega
    subst this
    exact i.store m hm1 hm2 hm3
  by_cases hin : q ≤ n
  · have hin' := (isInWindow_iff i.win.vq h1 h2).2 hin
    by_cases hrec : t.win.vn (n % 128) = .received
    · have hrec' := (isReceivedVn_iff n).2 hrec
      apply quiet
      · simp only [DlWin.rcv, hin', hrec', not_true_eq_false, if_false, if_true]
        exact i.win.raiseVq_quiet
      · simp only [DlTbf.rcv, hin', hrec', not_true_eq_false, if_false, if_true]
    · have hrec' : t.win.isReceivedVn (n % 128) = false := by
        cases hx : t.win.isReceivedVn (n % 128) with
        | false => rfl
        | true => exact absurd ((isReceivedVn_iff n).1 hx) hrec
      have e : t.win.rcv (n % 128) = (t.win.receiveBsn (n % 128)).raiseVq := by
        simp only [DlWin.rcv, hin', hrec', not_true_eq_false, if_false, Bool.false_eq_true]
      obtain ⟨r1, b1, b2, b3, b4⟩ := receiveBsn_spec i.win h1 hin
      have hsz : ¬ (blk n).data.length > 74 := by have := hp.size n; omega
      rw [e] at s' hkey htake
      -- the store after the block has been stored
      have hst : ∀ m, q ≤ m → m < r + 64 → (m = n ∨ t.win.vn (m % 128) = .received) →
          upd t.blkst (n % 128) (blk n) (m % 128) = blk m := by
        intro m hm1 hm2 hm3
        rw [upd_apply]
        by_cases hmn : m % 128 = n % 128
        · have : m = n := by omega
          subst this
          simp
        · rw [if_neg hmn]
          rcases hm3 with rfl | hm3
          · exact absurd rfl hmn
          · exact i.store m hm1 hm2 hm3
      have hcount : (t.win.receiveBsn (n % 128)).raiseVq.2 ≤ 64 + (r - q) + 64 := by
        have a1 := s'.qr
        have a2 := s'.rq
        have a3 := s'.vr
        have a4 := i.win.vr
        have hr1 : r1 ≤ q + 64 := by rw [b3]; split <;> omega
        obtain ⟨q', c1, c2, c3, _⟩ := raiseVqLoop_spec sns q r1 (t.win.receiveBsn (n % 128)) (b2.trans i.win.vq) b1
          (by rw [b3]; split <;> omega) (by omega) (by simp [sns]; omega)
        show (DlWin.raiseVqLoop sns _).2 ≤ _
        omega
      have htaken : ∀ m, q ≤ m → m < q + (t.win.receiveBsn (n % 128)).raiseVq.2 → m < r + 64 := by
        intro m hm1 hm2
        rcases htake m hm1 hm2 with rfl | hm3
        · omega
        · have hr1 : r1 ≤ q + 64 := by rw [b3]; split <;> omega
          obtain ⟨q', c1, c2, c3, _⟩ := raiseVqLoop_spec sns q r1 (t.win.receiveBsn (n % 128)) (b2.trans i.win.vq) b1
            (by rw [b3]; split <;> omega) (by omega) (by simp [sns]; omega)
          have : (t.win.receiveBsn (n % 128)).raiseVq.2 = q' - q := c3
          omega
      have hfit : Fits (t.rx.getD []) ((List.range (t.win.receiveBsn (n % 128)).raiseVq.2).flatMap
          fun j => blockPieces (blk (q + 0 + j))) := by
        rw [i.rx]
        have hs := hp.short (q + (t.win.receiveBsn (n % 128)).raiseVq.2)
        have := fits_of_short _ _ hs.1 hs.2
        rw [piecesUpTo_add] at this
        exact (fits_app _ _ _ this).2
      obtain ⟨rx', g1, g2⟩ := assembleAll_spec (upd t.blkst (n % 128) (blk n)) blk q (t.win.receiveBsn (n % 128)).vq
        (b2.trans i.win.vq) (fun n => (hp.size n).1) hp.few (t.win.receiveBsn (n % 128)).raiseVq.2 0 t.rx
        (fun j _ hj => hst (q + j) (by omega) (htaken _ (by omega) (by omega)) (htake _ (by omega) (by omega))) hfit
      have hpc := piecesUpTo_add blk q (t.win.receiveBsn (n % 128)).raiseVq.2
      simp only [Nat.add_zero] at g1 g2
      rw [i.rx] at g1 g2
      have hrun : t.rcv (n % 128) (blk n) = .ok ({ win := (t.win.receiveBsn (n % 128)).raiseVq.1,
                                                   blkst := upd t.blkst (n % 128) (blk n), rx := rx' },
          { frames := (reassemble (reassemble [] (piecesUpTo blk q)).2
              ((List.range (t.win.receiveBsn (n % 128)).raiseVq.2).flatMap fun j => blockPieces (blk (q + j)))).1
            last := decide ((t.win.receiveBsn (n % 128)).raiseVq.1.vq = (t.win.receiveBsn (n % 128)).raiseVq.1.vr ∧
              (upd t.blkst (n % 128) (blk n) (idx (modSns (sub16 (t.win.receiveBsn (n % 128)).raiseVq.1.vr 1)))).data.length ≠ 0 ∧
              (upd t.blkst (n % 128) (blk n) (idx (modSns (sub16 (t.win.receiveBsn (n % 128)).raiseVq.1.vr 1)))).fbi) }) := by
        simp only [DlTbf.rcv, hin', hrec', not_true_eq_false, if_false, Bool.false_eq_true, hsz, Res.bind_ok, hidx]
        rw [g1]
        rfl
      refine ⟨_, _, r', hrun, by rw [e], ?_, ?_⟩
      · rw [e]
        refine ⟨s', ?_, ?_⟩
        · intro m hm1 hm2 hm3
          have a2 := s'.rq
          rcases hkey m hm2 (by omega) hm3 with rfl | ⟨hk1, hk2⟩
          · exact hst m hin (by omega) (Or.inl rfl)
          · exact hst m (by omega) hk1 (Or.inr hk2)
        · rw [g2, hpc, reassemble_app]
      · rw [e]
        simp only [framesUpTo]
        rw [hpc, reassemble_app]
  · have hin' : t.win.isInWindow (n % 128) = false := by
      cases hx : t.win.isInWindow (n % 128) with
      | false => rfl
      | true => exact absurd ((isInWindow_iff i.win.vq h1 h2).1 hx) hin
    apply quiet
    · simp only [DlWin.rcv, hin', Bool.false_eq_true, not_false_eq_true, if_true]
      exact i.win.raiseVq_quiet
    · simp only [DlTbf.rcv, hin', Bool.false_eq_true, not_false_eq_true, if_true]

theorem TbfInv.init (blk : Nat → Block) : TbfInv blk [] 0 0 DlTbf.init :=
  ⟨Sound.init, fun _ _ _ h => (by cases h), rfl⟩

/-- Frames handed up in a sequence of receptions. -/
def handedUp (os : List RcvOut) : List Octets := (os.map (·.frames)).flatten

theorem run_spec {blk : Nat → Block} (hp : ProperSender blk) : ∀ (s p : List Nat) (t : DlTbf) (q r : Nat),
    TbfInv blk p q r t →
    p.foldl (fun (s : DlWin × Nat) n => ((s.1.rcv (n % 128)).1, s.2 + (s.1.rcv (n % 128)).2)) (DlWin.init, 0) =
      (t.win, q) →
    RespectsAcks (p ++ s) →
    ∃ t' os, t.run (wire blk s) = .ok (t', os) ∧
      framesUpTo blk (dlTaken (p ++ s)) = framesUpTo blk q ++ handedUp os := by
  intro s
  induction s with
  | nil =>
    intro p t q r _ e _
    refine ⟨t, [], rfl, ?_⟩
    have : dlTaken (p ++ []) = q := by simp [dlTaken, e]
    rw [this]
    simp [handedUp]
  | cons n s ih =>
    intro p t q r i e hw
    have ht : dlTaken p = q := by simp [dlTaken, e]
    have a := hw p n s rfl
    rw [ht] at a
    obtain ⟨t', o, r', g1, g2, g3, g4⟩ := i.rcv hp a.1 a.2
    obtain ⟨t2, os, f1, f2⟩ := ih (p ++ [n]) t' (q + (t.win.rcv (n % 128)).2) r' g3
      (by simp [List.foldl_append, e, g2]) (by simpa using hw)
    refine ⟨t2, o :: os, ?_, ?_⟩
    · simp only [wire, List.map_cons, DlTbf.run]
      rw [g1]
      simp only [Res.bind_ok]
      have : t'.run (List.map (fun n => (n % 128, blk n)) s) = .ok (t2, os) := f1
      rw [this]
      rfl
    · have he : p ++ n :: s = (p ++ [n]) ++ s := by simp
      rw [he, f2, g4]
      simp [handedUp]

/-- C21, for every history of losses, reordering and duplication: the frames handed up are exactly the frames
in the sender's blocks number 0, 1, 2, ... up to those the receiver has taken out of its window, in order,
each once, unaltered; and nothing faults. -/
theorem c21_delivered_in_order (blk : Nat → Block) (hp : ProperSender blk) (h : List Nat) (hw : RespectsAcks h) :
    ∃ t os, DlTbf.init.run (wire blk h) = .ok (t, os) ∧ handedUp os = framesUpTo blk (dlTaken h) := by
  obtain ⟨t, os, a, b⟩ := run_spec hp h [] DlTbf.init 0 0 (TbfInv.init blk) rfl (by simpa using hw)
  refine ⟨t, os, a, ?_⟩
  simpa [framesUpTo, piecesUpTo, reassemble] using b.symm

/-- With no gap of a full window, the blocks taken out are all those below the lowest one missing. -/
theorem taken_lowest : ∀ (s p : List Nat) (w : DlWin) (q r : Nat), Complete p q r w →
    p.foldl (fun (s : DlWin × Nat) n => ((s.1.rcv (n % 128)).1, s.2 + (s.1.rcv (n % 128)).2)) (DlWin.init, 0) = (w, q) →
    RespectsWindow (p ++ s) → NoLongGap (p ++ s) →
    (∀ s1 n s2, s = s1 ++ n :: s2 → n < dlTaken (p ++ s1) + 64 ∧ dlTaken (p ++ s1) ≤ n + 64) ∧
      LowestMissing (p ++ s) (dlTaken (p ++ s)) := by
  intro s
  induction s with
  | nil =>
    intro p w q r c e _ _
    refine ⟨fun s1 n s2 h => by simp at h, ?_⟩
    have : dlTaken (p ++ []) = q := by simp [dlTaken, e]
    rw [this]
    simp only [List.append_nil]
    exact ⟨c.miss, c.low⟩
  | cons n s ih =>
    intro p w q r c e hw hg
    have a := hw p n s rfl q ⟨c.miss, c.low⟩
    have b := hg p n s rfl r c.top
    obtain ⟨q', r', c'⟩ := c.rcv a.1 a.2 b
    obtain ⟨r1, s1, _, _, _⟩ := c.toSound.rcv a.1 a.2
    have hq' : q' = q + (w.rcv (n % 128)).2 := by
      have h1 := c'.vq
      have h2 := s1.vq
      have h3 := c'.vr
      have h4 := s1.vr
      have h5 : q + (w.rcv (n % 128)).2 ≤ q' := by
        by_cases hlt : q' < q + (w.rcv (n % 128)).2
        · exact absurd (s1.low q' hlt) c'.miss
        · omega
      have h6 : q' ≤ q + (w.rcv (n % 128)).2 + 64 := by
        have g1 := c.qr
        have g2 := c.rq
        have g3 := c'.qr
        have g4 : r' ≤ r ∨ r' ≤ n + 1 := by
          rcases c'.top.2 with g | g
          · omega
          · rcases List.mem_append.1 g with g | g
            · have := c.top.1 _ g; omega
            · simp at g; omega
        omega
      omega
    rw [hq'] at c'
    have := ih (p ++ [n]) (w.rcv (n % 128)).1 _ r' c' (by simp [List.foldl_append, e])
      (by simpa using hw) (by simpa using hg)
    obtain ⟨i1, i2⟩ := this
    refine ⟨?_, by simpa using i2⟩
    intro s1' n' s2' he
    rcases s1' with _ | ⟨x, s1'⟩
    · simp at he
      obtain ⟨rfl, _⟩ := he
      have ht : dlTaken (p ++ []) = q := by simp [dlTaken, e]
      rw [ht]
      exact a
    · simp at he
      obtain ⟨rfl, he⟩ := he
      simpa using i1 s1' n' s2' he

/-- C21 as listed, with nothing held back: the frames handed up are those of all blocks below the lowest
number missing. -/
def C21Statement : Prop :=
  ∀ blk, ProperSender blk → ∀ h, RespectsWindow h → ∀ q, LowestMissing h q →
    ∃ t os, DlTbf.init.run (wire blk h) = .ok (t, os) ∧ handedUp os = framesUpTo blk q

/-- C21, partial: histories in which 63 consecutive blocks are lost are excluded. -/
theorem c21_all_delivered_partial (blk : Nat → Block) (hp : ProperSender blk) (h : List Nat) (hw : RespectsWindow h)
    (hg : NoLongGap h) (q : Nat) (hq : LowestMissing h q) :
    ∃ t os, DlTbf.init.run (wire blk h) = .ok (t, os) ∧ handedUp os = framesUpTo blk q := by
  obtain ⟨a, b⟩ := taken_lowest h [] DlWin.init 0 0 Complete.init rfl (by simpa using hw) (by simpa using hg)
  have : dlTaken h = q := lowest_unique (by simpa using b) hq
  rw [← this]
  exact c21_delivered_in_order blk hp h (fun p n s e => by simpa using a p n s e)

/-- A sender whose blocks carry one frame of 19 octets each. -/
def oneFrameEach : Nat → Block := fun n =>
  { e := false, fbi := false, data := 0x4d :: List.replicate 18 0x2b ++ [UInt8.ofNat n] }

theorem oneFrameEach_pieces (n : Nat) : blockPieces (oneFrameEach n) = [(List.replicate 18 0x2b ++ [UInt8.ofNat n], true)] := by
  simp [blockPieces, oneFrameEach, pieces, readLis, cut, List.replicate]

theorem oneFrameEach_upTo (k : Nat) :
    reassemble [] (piecesUpTo oneFrameEach k) = ((List.range k).map fun n => List.replicate 18 0x2b ++ [UInt8.ofNat n], []) := by
  induction k with
  | zero => rfl
  | succ k ih =>
    rw [piecesUpTo_add oneFrameEach k 1, reassemble_app, ih]
    simp [List.range_succ, oneFrameEach_pieces, reassemble]

theorem oneFrameEach_proper : ProperSender oneFrameEach where
  size := by intro n; simp [oneFrameEach]
  few := by intro n; rw [oneFrameEach_pieces]; simp
  short := by
    intro k
    rw [framesUpTo, oneFrameEach_upTo]
    refine ⟨?_, by simp⟩
    intro f hf
    simp only [List.mem_map] at hf
    obtain ⟨n, _, rfl⟩ := hf
    simp

/-- Blocks 1, 3, 0, 0, 2 arrive: frames 0..3 are handed up. -/
example : ∃ t os, DlTbf.init.run (wire oneFrameEach [1, 3, 0, 0, 2]) = .ok (t, os) ∧
    handedUp os = framesUpTo oneFrameEach 4 := by
  obtain ⟨a, b⟩ := small_ok (h := [1, 3, 0, 0, 2]) (by decide)
  exact c21_all_delivered_partial _ oneFrameEach_proper _ a b 4 ⟨by decide, by decide⟩

/-- C21 fails: block 63 arrives first, then blocks 0..62.  All 64 blocks have arrived, but the frame in block 63
is not handed up (nor ever will be, see `c17_dl_window_deadlock_violated`). -/
theorem c21_all_delivered_violated : ¬ C21Statement := by
  intro H
  have hw : RespectsWindow (63 :: List.range 63) := by
    intro p n s e q hq
    have hn : n < 64 := by
      have : n ∈ 63 :: List.range 63 := by rw [e]; simp
      simp at this; omega
    have hq64 : q ≤ 64 := by
      by_cases h : q ≤ 64
      · exact h
      · have h64 := hq.2 64 (by omega)
        have : 64 ∈ 63 :: List.range 63 := by rw [e]; exact List.mem_append_left _ h64
        simp at this
    omega
  obtain ⟨t, os, a, b⟩ := H oneFrameEach oneFrameEach_proper _ hw 64
    ⟨by simp, fun n hn => by simp; omega⟩
  have h1 : (match DlTbf.init.run (wire oneFrameEach (63 :: List.range 63)) with
      | .ok (_, os) => (handedUp os).length | _ => 0) = 63 := by decide +kernel
  rw [a] at h1
  simp only at h1
  rw [b, framesUpTo, oneFrameEach_upTo] at h1
  simp at h1

/-- Why `ProperSender` bounds the length of a PDU: a network that never ends one makes the receiver abort, at the
78th block of 20 octets. -/
theorem c61_dl_data_never_aborts_violated :
    DlTbf.init.run (wire (fun _ => { e := true, fbi := false, data := List.replicate 20 0x2b }) (List.range 78)) =
      .ub .assertFail := by
  have h : (match DlTbf.init.run (wire (fun _ => { e := true, fbi := false, data := List.replicate 20 0x2b })
      (List.range 78)) with | .ub .assertFail => true | _ => false) = true := by decide +kernel
  revert h
  rcases DlTbf.init.run (wire (fun _ => { e := true, fbi := false, data := List.replicate 20 0x2b })
      (List.range 78)) with _ | _ | f
  · intro h; cases h
  · intro h; cases h
  · cases f <;> intro h <;> first | rfl | cases h

end Verif.Props
