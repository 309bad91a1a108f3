import Verif.Rlc.DlLinkInv

/-!
# A downlink transfer over a lossy link: C150 (reliable), C151 (comes to its end)
-/
namespace Verif.Props

open Verif.Rlc Verif.Spec

variable {blk : Nat → Block} {window total : Nat}

theorem dl_step (ht : Transfer blk total) (hw : window ≤ 64) {s : DlLink} {h : List Nat} {q r : Nat} {ns : List Nat}
    {sn : List Snap} (i : DlInv blk window total s h q r ns sn) {e : DlLinkEv} (ha : s.Allowed window total e) :
    ∃ s' h' q' r' ns' sn', s.step blk e = .ok s' ∧ DlInv blk window total s' h' q' r' ns' sn' := by
  cases e with
  | send n => exact ⟨_, h, q, r, _, sn, rfl, i.send hw ha⟩
  | downArrives =>
    cases ns with
    | nil =>
      refine ⟨s, h, q, r, [], sn, ?_, i⟩
      have := i.down
      simp only [wire, List.map_nil] at this
      simp only [DlLink.step, this]
    | cons n ns =>
      obtain ⟨s', q', r', a, b, _⟩ := i.downArrives ht hw
      exact ⟨s', _, q', r', ns, sn, a, b⟩
  | downLost => exact ⟨_, h, q, r, _, sn, rfl, i.downLost⟩
  | report => exact ⟨_, h, q, r, ns, _, rfl, i.report⟩
  | upArrives =>
    cases hu : s.up with
    | nil =>
      refine ⟨s, h, q, r, ns, sn, ?_, i⟩
      simp only [DlLink.step, hu]
    | cons d up =>
      obtain ⟨sn', a, _⟩ := i.upArrives hu
      refine ⟨_, h, q, r, ns, sn', ?_, a⟩
      simp only [DlLink.step, hu]
  | upLost => exact ⟨_, h, q, r, ns, _, rfl, i.upLost⟩

theorem dl_reached (ht : Transfer blk total) (hw : window ≤ 64) {s : DlLink} (hr : s.Reached blk window total) :
    ∃ h q r ns sn, DlInv blk window total s h q r ns sn := by
  induction hr with
  | init => exact ⟨[], 0, 0, [], [], DlInv.init ht.some⟩
  | step _ ha he ih =>
    obtain ⟨h, q, r, ns, sn, i⟩ := ih
    obtain ⟨s', h', q', r', ns', sn', a, b⟩ := dl_step ht hw i ha
    rw [a] at he
    injection he with he
    subst he
    exact ⟨h', q', r', ns', sn', b⟩

/-! ## C150 -/

theorem framesUpTo_mono (blk : Nat → Block) {a b : Nat} (h : a ≤ b) : framesUpTo blk a <+: framesUpTo blk b := by
  obtain ⟨k, rfl⟩ := Nat.exists_eq_add_of_le h
  simp only [framesUpTo, piecesUpTo_add, reassemble_app]
  exact List.prefix_append _ _

/-- C150: whatever the link loses and delays, nothing faults; the frames handed up are, in order, each once and
unaltered, a beginning of those sent; they contain all that the network takes to have arrived; and when the network
has been told that all has arrived, they are all the frames sent. -/
theorem c150_downlink_reliable (ht : Transfer blk total) {s : DlLink} (hr : s.Reached blk 64 total) :
    (∀ e, s.Allowed 64 total e → ∃ s', s.step blk e = .ok s') ∧
    s.given <+: framesUpTo blk total ∧
    framesUpTo blk s.net.va <+: s.given ∧
    (s.net.done = true → s.given = framesUpTo blk total) := by
  obtain ⟨h, q, r, ns, sn, i⟩ := dl_reached ht (Nat.le_refl 64) hr
  refine ⟨fun e ha => ?_, ?_, ?_, fun hd => ?_⟩
  · obtain ⟨s', _, _, _, _, _, a, _⟩ := dl_step ht (Nat.le_refl 64) i ha
    exact ⟨s', a⟩
  · rw [i.given]; exact framesUpTo_mono blk i.qt
  · rw [i.given]
    apply framesUpTo_mono
    cases hd : s.net.done with
    | true => have := i.over hd; have := i.vas; have := i.vst; omega
    | false => exact i.vq hd (Snap.now q r s.ms.t.win) (by simp)
  · rw [i.given, i.over hd]

/-! ## C151 -/

/-- C151 as listed: from every state the transfer can get into, it comes to its end after finitely many rounds in which
nothing gets lost. -/
def C151Statement : Prop :=
  ∀ blk total, Transfer blk total → ∀ s : DlLink, s.Reached blk 64 total → ∃ k, s.EndsWithin blk k

theorem dl_run_append (a b : List DlLinkEv) : ∀ s : DlLink, DlLink.run blk (a ++ b) s = (DlLink.run blk a s >>= DlLink.run blk b) := by
  induction a with
  | nil => intro s; rfl
  | cons e a ih =>
    intro s
    simp only [List.cons_append, DlLink.run]
    cases s.step blk e with
    | ok v => simp only [Res.bind_ok]; exact ih v
    | err x => rfl
    | ub f => rfl

/-- Everything under way to the mobile station arrives. -/
theorem dl_drain_down (ht : Transfer blk total) (hw : window ≤ 64) (l : List Nat) : ∀ (ns : List Nat) (s : DlLink)
    (h : List Nat) (q r : Nat) (sn : List Snap), DlInv blk window total s h q r (l ++ ns) sn →
    ∃ s' q' r', DlLink.run blk (List.replicate l.length .downArrives) s = .ok s' ∧
      DlInv blk window total s' (h ++ l) q' r' ns sn ∧ s'.net = s.net ∧ s'.up = s.up := by
  induction l with
  | nil => intro ns s h q r sn i; exact ⟨s, q, r, rfl, by simpa using i, rfl, rfl⟩
  | cons n l ih =>
    intro ns s h q r sn i
    obtain ⟨s1, q1, r1, a, b, c, d⟩ := i.downArrives ht hw
    obtain ⟨s2, q2, r2, a2, b2, c2, d2⟩ := ih ns s1 _ _ _ _ b
    refine ⟨s2, q2, r2, ?_, by simpa using b2, c2.trans c, d2.trans d⟩
    simp only [List.length_cons, List.replicate_succ, DlLink.run, a, Res.bind_ok, a2]

/-- Reports under way arrive. -/
theorem dl_drain_up (l : List DlReport) : ∀ (up : List DlReport) (s : DlLink) (h : List Nat) (q r : Nat) (ns : List Nat)
    (sn : List Snap), DlInv blk window total s h q r ns sn → s.up = l ++ up →
    ∃ s' sn', DlLink.run blk (List.replicate l.length .upArrives) s = .ok s' ∧
      DlInv blk window total s' h q r ns sn' ∧ s'.up = up ∧ s'.ms = s.ms ∧ s.net.va ≤ s'.net.va ∧ s'.net.vs = s.net.vs ∧
      s'.down = s.down := by
  induction l with
  | nil => intro up s h q r ns sn i e; exact ⟨s, sn, rfl, i, e, rfl, Nat.le_refl _, rfl, rfl⟩
  | cons d l ih =>
    intro up s h q r ns sn i e
    obtain ⟨sn1, a, b, _⟩ := i.upArrives (by rw [e]; rfl : s.up = d :: (l ++ up))
    obtain ⟨s2, sn2, a2, b2, c2, d2, e2, f2, g2⟩ := ih up _ _ _ _ _ _ a rfl
    refine ⟨s2, sn2, ?_, b2, c2, d2, Nat.le_trans b e2, f2, g2⟩
    simp only [List.length_cons, List.replicate_succ, DlLink.run, DlLink.step, e, List.cons_append, Res.bind_ok, a2]

/-- A round brings the transfer on. -/
theorem dl_round (ht : Transfer blk total) (h0 : 0 < window) (hw : window ≤ 63) {s : DlLink} {h : List Nat} {q r : Nat}
    {ns : List Nat} {sn : List Snap} (i : DlInv blk window total s h q r ns sn) (hd : s.net.done = false) :
    ∃ s' h' q' r' ns' sn', DlLink.run blk s.round s = .ok s' ∧ DlInv blk window total s' h' q' r' ns' sn' ∧
      (s'.net.done = true ∨ s.net.va < s'.net.va) := by
  have ha : s.Allowed window total (.send s.net.va) :=
    ⟨hd, i.more hd, i.vas, Nat.le_refl _, by omega⟩
  have i1 := i.send (by omega) ha
  generalize hs1 : ({ s with net := { s.net with vs := max s.net.vs (s.net.va + 1) },
                             down := s.down ++ [(s.net.va % 128, blk s.net.va)] } : DlLink) = s1 at i1
  have hva : s1.net.va = s.net.va := by rw [← hs1]
  have hvs : s.net.va < s1.net.vs := by rw [← hs1]; simp only; omega
  have hdone : s1.net.done = false := by rw [← hs1]; exact hd
  have hup : s1.up = s.up := by rw [← hs1]
  have hlen : s.down.length + 1 = (ns ++ [s.net.va]).length := by rw [i.down]; simp [wire]
  obtain ⟨s2, q2, r2, a2, i2, c2, d2⟩ := dl_drain_down (window := window) ht (by omega) (ns ++ [s.net.va]) [] s1 h q r sn (by simpa using i1)
  have i3 := i2.report
  have hq2 : s.net.va < q2 := by
    have h1 : s2.net.va ≤ q2 := i2.vq (by rw [c2]; exact hdone) (Snap.now q2 r2 s2.ms.t.win) (by simp)
    have h2 := (i2.compl hw).miss
    rw [c2, hva] at h1
    by_cases hx : s.net.va = q2
    · exact absurd (by rw [← hx]; simp) h2
    · omega
  generalize hs3 : ({ s2 with up := s2.up ++ [s2.ms.report] } : DlLink) = s3 at i3
  have hup3 : s3.up = s.up ++ [s2.ms.report] := by rw [← hs3]; simp only [d2, hup]
  have hms3 : s3.ms = s2.ms := by rw [← hs3]
  have hnet3 : s3.net = s1.net := by rw [← hs3]; exact c2
  obtain ⟨s4, sn4, a4, i4, c4, d4, e4, f4, _⟩ := dl_drain_up s.up [s2.ms.report] s3 _ _ _ _ _ i3 hup3
  obtain ⟨sn5, i5, b5, f5⟩ := i4.upArrives c4
  refine ⟨_, _, _, _, _, sn5, ?_, i5, ?_⟩
  · simp only [DlLink.round, DlLink.run, DlLink.step, Res.bind_ok, hs1]
    rw [dl_run_append, hlen, a2]
    simp only [Res.bind_ok, DlLink.run, DlLink.step, hs3]
    rw [List.replicate_add, dl_run_append, a4]
    simp only [Res.bind_ok, List.replicate_one, DlLink.run, DlLink.step, c4]
  · rw [hnet3, hva] at e4
    by_cases hlt : s.net.va < s4.net.va
    · right
      exact Nat.lt_of_lt_of_le hlt b5
    · have hva4 : s4.net.va = s.net.va := by omega
      have hvs4 : s4.net.vs = s1.net.vs := by rw [f4, hnet3]
      right
      show s.net.va < (s4.net.hear s2.ms.report).va
      have hack : (s4.net.hear s2.ms.report).acked s4.net.va = true := by
        simp only [DlNet.hear, Bool.or_eq_true, Bool.and_eq_true, decide_eq_true_eq]
        right
        refine ⟨⟨by omega, by omega⟩, Or.inr ?_⟩
        have hc := i2.compl hw
        have hrq := hc.rq
        have hqr := hc.qr
        have hrvs := i2.rvs
        have hvsa := i2.vsa
        rw [c2] at hrvs hvsa
        have hk : (s2.ms.report.desc.ssn + 128 - s4.net.va % 128) % 128 = r2 - s.net.va := by
          have : s2.ms.report.desc.ssn = r2 % 128 := hc.vr
          rw [this, hva4]
          omega
        have hb := (ackDesc_bit (k := r2 - s.net.va) hc.vr (by omega) (by omega)).2 (by
          have e : (r2 + 128 - (r2 - s.net.va)) % 128 = s.net.va % 128 := by omega
          rw [e]
          exact hc.all s.net.va (by simp) (by omega))
        simp only [reportedReceived, hk, Bool.and_eq_true, decide_eq_true_eq]
        exact ⟨⟨by omega, by omega⟩, hb⟩
      obtain ⟨k, hk⟩ : ∃ k, s4.net.vs - s4.net.va = k + 1 := ⟨s4.net.vs - s4.net.va - 1, by omega⟩
      have : (s4.net.hear s2.ms.report).va =
          lowestUnacked (s4.net.hear s2.ms.report).acked (s4.net.vs - s4.net.va) s4.net.va := rfl
      rw [this, hk]
      simp only [lowestUnacked, hack, if_true]
      have := (lowestUnacked_spec (s4.net.hear s2.ms.report).acked k (s4.net.va + 1)).1
      omega

theorem dl_ends (ht : Transfer blk total) (h0 : 0 < window) (hw : window ≤ 63) (k : Nat) : ∀ {s : DlLink} {h : List Nat}
    {q r : Nat} {ns : List Nat} {sn : List Snap}, DlInv blk window total s h q r ns sn → total ≤ s.net.va + k →
    s.EndsWithin blk k := by
  induction k with
  | zero =>
    intro s h q r ns sn i hk
    cases hd : s.net.done with
    | true => exact .over hd
    | false => have := i.more hd; omega
  | succ k ih =>
    intro s h q r ns sn i hk
    cases hd : s.net.done with
    | true => exact .over hd
    | false =>
      obtain ⟨s', h', q', r', ns', sn', a, b, c⟩ := dl_round ht h0 hw i hd
      refine .round a ?_
      rcases c with c | c
      · exact .over c
      · exact ih b (by omega)

/-- C151, partial: the network keeps to a window of 63 blocks (or fewer) instead of 64.  One round for each block not
yet acknowledged is enough. -/
theorem c151_downlink_ends_partial (ht : Transfer blk total) (h0 : 0 < window) (hw : window ≤ 63) {s : DlLink}
    (hr : s.Reached blk window total) : s.EndsWithin blk (total - s.net.va) := by
  obtain ⟨h, q, r, ns, sn, i⟩ := dl_reached ht (by omega) hr
  exact dl_ends ht h0 hw _ i (by omega)

/-! ## Examples and the counterexample -/

/-- A transfer of 64 blocks with one frame of 19 octets in each. -/
def frames64 : Nat → Block := fun n => { oneFrameEach n with fbi := n == 63 }

theorem frames64_pieces (n : Nat) : blockPieces (frames64 n) = blockPieces (oneFrameEach n) := by
  by_cases hn : n = 63
  · subst hn; decide +kernel
  · have : frames64 n = oneFrameEach n := by simp [frames64, oneFrameEach, hn]
    rw [this]

theorem frames64_upTo (k : Nat) : piecesUpTo frames64 k = piecesUpTo oneFrameEach k := by
  simp only [piecesUpTo, frames64_pieces]

theorem frames64_transfer : Transfer frames64 64 where
  proper := {
    size := fun n => oneFrameEach_proper.size n
    few := fun n => by rw [frames64_pieces]; exact oneFrameEach_proper.few n
    short := fun k => by
      have := oneFrameEach_proper.short k
      simp only [framesUpTo, frames64_upTo] at this ⊢
      exact this }
  some := by omega
  fbi := by intro n _; simp [frames64]

/-- Whether an event is allowed (verified checker). -/
def dlAllowedB (window total : Nat) (s : DlLink) : DlLinkEv → Bool
  | .send n => !s.net.done && decide (n < total ∧ n ≤ s.net.vs ∧ s.net.va ≤ n ∧ n < s.net.va + window)
  | _ => true

/-- Whether the events are allowed, one after the other (verified checker). -/
def dlRunB (blk : Nat → Block) (window total : Nat) : List DlLinkEv → DlLink → Option DlLink
  | [], s => some s
  | e :: es, s =>
    match s.step blk e with
    | .ok s' => if dlAllowedB window total s e = true then dlRunB blk window total es s' else none
    | _ => none

theorem dlRunB_reached (es : List DlLinkEv) : ∀ {s s' : DlLink}, s.Reached blk window total →
    dlRunB blk window total es s = some s' → s'.Reached blk window total := by
  induction es with
  | nil => intro s s' hr e; simp only [dlRunB, Option.some.injEq] at e; exact e ▸ hr
  | cons x es ih =>
    intro s s' hr e
    simp only [dlRunB] at e
    cases hx : s.step blk x with
    | ok s1 =>
      rw [hx] at e
      by_cases hok : dlAllowedB window total s x = true
      · simp only [hok, if_true] at e
        refine ih (.step hr ?_ hx) e
        cases x with
        | send n =>
          simp only [dlAllowedB, Bool.and_eq_true, Bool.not_eq_true', decide_eq_true_eq] at hok
          exact ⟨hok.1, hok.2.1, hok.2.2.1, hok.2.2.2.1, hok.2.2.2.2⟩
        | _ => trivial
      · simp only [hok] at e
        cases e
    | err _ => rw [hx] at e; cases e
    | ub _ => rw [hx] at e; cases e

/-- Block 0 is lost, blocks 1 and 2 arrive, a report gets lost, another one is under way, block 0 is sent again. -/
def someLosses : List DlLinkEv :=
  [.send 0, .send 1, .downLost, .send 2, .downArrives, .report, .downArrives, .report, .upLost, .send 0]

/-- The hypotheses of C150 and C151 are met in such a state. -/
example : ∃ s, dlRunB frames64 63 64 someLosses DlLink.init = some s ∧ s.given = [] ∧ s.net.va = 0 ∧ s.down.length = 1 ∧
    s.up.length = 1 ∧ s.Reached frames64 63 64 ∧ s.EndsWithin frames64 64 := by
  have h : (match dlRunB frames64 63 64 someLosses DlLink.init with
      | some s => decide (s.given = [] ∧ s.net.va = 0 ∧ s.down.length = 1 ∧ s.up.length = 1)
      | none => false) = true := by decide +kernel
  cases hx : dlRunB frames64 63 64 someLosses DlLink.init with
  | none => rw [hx] at h; cases h
  | some s =>
    rw [hx] at h
    have h' : s.given = [] ∧ s.net.va = 0 ∧ s.down.length = 1 ∧ s.up.length = 1 := of_decide_eq_true h
    have hr := dlRunB_reached _ .init hx
    refine ⟨s, rfl, h'.1, h'.2.1, h'.2.2.1, h'.2.2.2, hr, ?_⟩
    have := c151_downlink_ends_partial frames64_transfer (by omega) (by omega) hr
    rwa [h'.2.1] at this

/-- Blocks 0 to 62 get lost, block 63 arrives; then blocks 0 to 62 are sent again and arrive, and so does the
report. -/
def block63First : List DlLinkEv :=
  (List.range 63).flatMap (fun n => [.send n, .downLost]) ++ [.send 63, .downArrives] ++
  (List.range 63).flatMap (fun n => [.send n, .downArrives]) ++ [.report, .upArrives]

/-- The transfer is stuck (proof device). -/
def stuckB (s : DlLink) : Bool :=
  decide (s.net.va = 63 ∧ s.net.vs = 64 ∧ s.down.length = 0 ∧ s.up.length = 0) && !s.net.done && !s.net.acked 63 &&
  decide (s.ms.t.win.vq = 63 ∧ s.ms.t.win.vr = 63) && s.ms.t.win.isReceivedVn 63 && !s.ms.finished &&
  !(s.ms.t.blkst 62).fbi

theorem stuck_round {s s' : DlLink} (hs : stuckB s = true) (e : DlLink.run frames64 s.round s = .ok s') : stuckB s' = true := by
  obtain ⟨⟨va, vs, acked, done⟩, down, ⟨⟨⟨vr, vq, vn⟩, blkst, rx⟩, fin⟩, up, given⟩ := s
  simp only [stuckB, Bool.and_eq_true, decide_eq_true_eq, Bool.not_eq_true', List.length_eq_zero_iff] at hs
  obtain ⟨⟨⟨⟨⟨⟨⟨rfl, rfl, rfl, rfl⟩, rfl⟩, h1⟩, ⟨rfl, rfl⟩⟩, h2⟩, rfl⟩, h3⟩ := hs
  have hin : (DlWin.isInWindow ⟨63, 63, vn⟩ (63 % 128)) = true := by
    show decide (modSns (sub16 (63 % 128) 63) < ws) = true
    decide
  have hq : (DlWin.raiseVq ⟨63, 63, vn⟩) = (⟨63, 63, vn⟩, 0) := rfl
  have h2' : DlWin.isReceivedVn ⟨63, 63, vn⟩ (63 % 128) = true := h2
  have hl : idx (modSns (sub16 63 1)) = 62 := rfl
  have hrcv : DlTbf.rcv ⟨⟨63, 63, vn⟩, blkst, rx⟩ (63 % 128) (frames64 63) =
      .ok (⟨⟨63, 63, vn⟩, blkst, rx⟩, { frames := [], last := false }) := by
    simp only [DlTbf.rcv, hin, h2', not_true_eq_false, if_false, if_true, Res.bind_ok, hq, assembleAll, hl, h3,
      Bool.false_eq_true, and_false, decide_false]
  simp only [DlLink.round, DlLink.run, DlLink.step, List.length_nil, List.nil_append, Nat.zero_add, List.replicate_one,
    List.cons_append, Res.bind_ok, DlRx.rcv, hrcv, Bool.or_false] at e
  injection e with e
  subst e
  have hrr : reportedReceived (DlRx.report ⟨⟨⟨63, 63, vn⟩, blkst, rx⟩, false⟩).desc 63 = false := by
    simp [reportedReceived, DlRx.report, DlWin.ackDesc]
  have hf : (DlRx.report ⟨⟨⟨63, 63, vn⟩, blkst, rx⟩, false⟩).final = false := rfl
  simp only [stuckB, DlNet.hear, h1, hrr, hf, Bool.or_false, Bool.and_false, Bool.false_or, h2, h3, lowestUnacked,
    List.length_nil, Bool.not_false, Bool.and_true, Bool.and_eq_true, decide_eq_true_eq]
  simp [h2, h3, lowestUnacked, h1, hrr]

theorem stuck_never {k : Nat} {s : DlLink} (hs : stuckB s = true) : ¬ s.EndsWithin frames64 k := by
  induction k generalizing s with
  | zero =>
    intro h
    cases h with
    | over h => simp [stuckB, h] at hs
  | succ k ih =>
    intro h
    cases h with
    | over h => simp [stuckB, h] at hs
    | round h1 h2 => exact ih (stuck_round hs h1) h2

/-- C151 fails for a network that uses its window of 64 blocks: when the first 63 blocks get lost and the 64th arrives,
the transfer gets stuck for good, however well the link works from then on. -/
theorem c151_downlink_ends_violated : ¬ C151Statement := by
  intro H
  have h : (match dlRunB frames64 64 64 block63First DlLink.init with
      | some s => stuckB s
      | none => false) = true := by decide +kernel
  cases hx : dlRunB frames64 64 64 block63First DlLink.init with
  | none => rw [hx] at h; cases h
  | some s =>
    rw [hx] at h
    obtain ⟨k, hk⟩ := H frames64 64 frames64_transfer s (dlRunB_reached _ .init hx)
    exact stuck_never h hk

end Verif.Props
