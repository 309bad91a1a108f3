import Verif.Props.UlLink
import Verif.Props.EndToEnd

/-!
# C147: packets through the whole stack over an uplink that loses and delays blocks
-/
namespace Verif.Props

open Verif.Spec Verif.Rlc

/-- What the network has received without a gap is the beginning of what was composed. -/
theorem blocks_prefix {s : UlLink} (f : LinkFacts s) (hv : NetOk s.net) :
    s.net.blocks = s.composed.take s.net.vq := by
  have hq := vq_spec s.net hv
  have key : ∀ k, k ≤ s.net.vq → (List.range k).filterMap s.net.got = s.composed.take k := by
    intro k
    induction k with
    | zero => intro _; simp
    | succ k ih =>
      intro hk
      obtain ⟨b, hb⟩ := Option.isSome_iff_exists.1 (hq.1 k (by omega))
      have hc := f.got k b hb
      rw [List.range_succ, List.filterMap_append, ih (by omega), List.take_add_one, hc]
      simp [hb]
  exact key _ (Nat.le_refl _)

theorem netOk_reached {P : UlLink → UlLinkEv → Prop} {s : UlLink} (hr : s.Reached P) : NetOk s.net := by
  induction hr with
  | init q hq => exact (LinkInv.init q hq).net
  | @step s s' e hr' ha hp he ih =>
    obtain ⟨h, ns, sn, i⟩ := (linkFacts hr').live ha.1
    cases e with
    | send r =>
      obtain ⟨h0, h1, h2⟩ := ha.2
      obtain ⟨sa, w', bsn, k, n, _, _, a2, _, _, a5, _⟩ := i.send r h0 (by unfold hdrLen; omega) h2
      rw [he] at a2
      injection a2 with a2
      rw [a2, a5]; exact ih
    | upArrives =>
      obtain ⟨sa, e1, e2, _⟩ := i.upArrives
      rw [he] at e1
      injection e1 with e1
      rw [e1]; exact e2.net
    | downArrives =>
      obtain ⟨sa, e1, a1, _⟩ := i.downArrives ha.1
      rw [he] at e1
      injection e1 with e1
      rw [e1, a1]; exact ih
    | frame _ => simp only [UlLink.step] at he; injection he with he; rw [← he]; exact ih
    | upLost => simp only [UlLink.step] at he; injection he with he; rw [← he]; exact ih
    | report _ => simp only [UlLink.step] at he; injection he with he; rw [← he]; exact ih
    | downLost => simp only [UlLink.step] at he; injection he with he; rw [← he]; exact ih

/-- The countdown value is right, and the last block does not carry two or more frames filling it exactly without a
length indicator for the last one (C19). -/
def RightAndNoExactFit (s : UlLink) (e : UlLinkEv) : Prop :=
  RightCv s e ∧ match e with
    | .send r => r.cv = 0 → NoExactFit r.len r.tlli s.tx.q
    | _ => True

theorem Reached.weaken {P Q : UlLink → UlLinkEv → Prop} (h : ∀ s e, P s e → Q s e) {s : UlLink} (hr : s.Reached P) :
    s.Reached Q := by
  induction hr with
  | init q hq => exact .init q hq
  | step _ ha hp he ih => exact .step ih ha (h _ _ hp) he

/-- What the blocks composed so far carry. -/
structure Carries (s : UlLink) : Prop where
  ex : ∃ ps, s.composed.mapM (fun b => pieces b.ti b.e (b.cv = 0) b.data) = some ps ∧
    (s.tx.finished = false → ∀ new, (reassemble [] ps.flatten).1 ++ glue (reassemble [] ps.flatten).2 (s.tx.q ++ new) =
      s.offered ++ new) ∧
    (s.tx.finished = true → reassemble [] ps.flatten = (s.offered, []))

theorem mapM_snoc {α β : Type} (f : α → Option β) {l : List α} {ps : List β} {a : α} {p : β}
    (h1 : l.mapM f = some ps) (h2 : f a = some p) : (l ++ [a]).mapM f = some (ps ++ [p]) := by
  rw [List.mapM_append, h1]
  simp [h2]

theorem carries {s : UlLink} (hr : s.Reached RightAndNoExactFit) : Carries s := by
  induction hr with
  | init q hq =>
    refine ⟨[], rfl, fun _ new => ?_, fun h => ?_⟩
    · simp [reassemble, UlLink.init, UlTx.init]
    · simp [UlLink.init, UlTx.init] at h
  | @step s s' e hr' ha hp he ih =>
    obtain ⟨h, ns, sn, i⟩ := (linkFacts hr').live ha.1
    have same : s'.composed = s.composed → s'.tx.q = s.tx.q → s'.tx.finished = s.tx.finished → s'.offered = s.offered →
        Carries s' := by
      intro h1 h2 h3 h4
      obtain ⟨ps, a, b, c⟩ := ih
      exact ⟨ps, by rw [h1]; exact a, by rw [h2, h3, h4]; exact b, by rw [h3, h4]; exact c⟩
    cases e with
    | send r =>
      obtain ⟨h0, h1, h2⟩ := ha.2
      have hl : hdrLen r.tlli < r.len := by unfold hdrLen; omega
      obtain ⟨sa, w', bsn, k, n, _, a1, a2, _, _, _, _, _, a8, a9, a10, _⟩ := i.send r h0 hl h2
      rw [he] at a2
      injection a2 with a2
      subst a2
      by_cases hk : k = .new
      · obtain ⟨_, b, x1, x2, x3⟩ := a9 hk
        have hnf : s.tx.finished = false := (a1.new hk).2.2.2.1
        obtain ⟨ps, y1, y2, _⟩ := ih
        have y2 := y2 hnf
        have hbcv : b.cv = r.cv := by
          have hqn : s.tx.q ≠ [] := by simpa using (a1.new hk).2.2.1
          have x1' := x1
          rw [createBlock_clean r.len r.cv r.tlli s.tx.q hl h2 hqn i.frames] at x1'
          injection x1' with x1'
          injection x1' with x1' _
          rw [← x1']
        have hcv := hp.1 b _ x1
        by_cases hc : r.cv = 0
        · have hq0 := hcv.1 hc
          have x1' : createBlock r.len 0 r.tlli s.tx.q = .ok (b, []) := by rw [← hc, ← hq0]; exact x1
          obtain ⟨p1, z1, z2⟩ := block_last hl h2 i.frames (hp.2 hc) x1' (reassemble [] ps.flatten).2
          refine ⟨ps ++ [p1], by rw [x2]; exact mapM_snoc _ y1 z1, ?_, fun _ => ?_⟩
          · intro hx
            rw [x3, hnf, hbcv, hc] at hx
            simp at hx
          · rw [List.flatten_append, List.flatten_singleton, reassemble_append, z2]
            have := y2 []
            simp only [List.append_nil] at this
            rw [a8, ← this]
        · obtain ⟨_, p1, z1, z2⟩ := block_more hl h2 hc i.frames x1 (reassemble [] ps.flatten).2
          refine ⟨ps ++ [p1], by rw [x2]; exact mapM_snoc _ y1 z1, fun _ new => ?_, ?_⟩
          · rw [List.flatten_append, List.flatten_singleton, reassemble_append]
            simp only
            rw [List.append_assoc, z2 new, a8]
            exact y2 new
          · intro hx
            rw [x3, hnf, hbcv] at hx
            simp [hc] at hx
      · obtain ⟨x1, x2, x3⟩ := a10 hk
        exact same x1 x2 x3 a8
    | frame f =>
      obtain ⟨ps, a, b, c⟩ := ih
      have hf : s.tx.finished = false := ha.2.2
      simp only [UlLink.step] at he
      injection he with he
      subst he
      refine ⟨ps, a, fun _ new => ?_, fun hx => by rw [show s.tx.finished = true from hx] at hf; cases hf⟩
      have := b hf (f :: new)
      simp only [List.append_assoc, List.cons_append, List.nil_append]
      exact this
    | upArrives =>
      obtain ⟨sa, e1, _, _, _, e5, _, _, e8, e9, _⟩ := i.upArrives
      rw [he] at e1
      injection e1 with e1
      subst e1
      exact same e8 (by rw [e5]) (by rw [e5]) e9
    | downArrives =>
      obtain ⟨sa, e1, _, a2, a3, a4, a5, _⟩ := i.downArrives ha.1
      rw [he] at e1
      injection e1 with e1
      subst e1
      exact same a2 a4 a5 a3
    | upLost => simp only [UlLink.step] at he; injection he with he; subst he; exact same rfl rfl rfl rfl
    | report _ => simp only [UlLink.step] at he; injection he with he; subst he; exact same rfl rfl rfl rfl
    | downLost => simp only [UlLink.step] at he; injection he with he; subst he; exact same rfl rfl rfl rfl

theorem finished_of_done {P : UlLink → UlLinkEv → Prop} {s : UlLink} (hr : s.Reached P) : s.done = true →
    s.tx.finished = true := by
  induction hr with
  | init q hq => intro hx; simp [UlLink.init] at hx
  | @step s s' e hr' ha hp he ih =>
    intro hd
    obtain ⟨h, ns, sn, i⟩ := (linkFacts hr').live ha.1
    have no : s'.done = s.done → s'.tx.finished = true := fun hx => by rw [hx, ha.1] at hd; cases hd
    cases e with
    | send r =>
      obtain ⟨h0, h1, h2⟩ := ha.2
      obtain ⟨sa, w', bsn, k, n, _, _, a2, _, _, _, _, a7, _⟩ := i.send r h0 (by unfold hdrLen; omega) h2
      rw [he] at a2
      injection a2 with a2
      subst a2
      exact no a7
    | upArrives =>
      obtain ⟨sa, e1, _, _, _, _, _, _, _, _, e10⟩ := i.upArrives
      rw [he] at e1
      injection e1 with e1
      subst e1
      exact no e10
    | downArrives =>
      obtain ⟨sa, e1, _, _, _, _, a5, _, _, _, e3⟩ := i.downArrives ha.1
      rw [he] at e1
      injection e1 with e1
      subst e1
      rw [a5]; exact (e3 hd).1
    | frame _ => simp only [UlLink.step] at he; injection he with he; exact no (by rw [← he])
    | upLost => simp only [UlLink.step] at he; injection he with he; exact no (by rw [← he])
    | report _ => simp only [UlLink.step] at he; injection he with he; exact no (by rw [← he])
    | downLost => simp only [UlLink.step] at he; injection he with he; exact no (by rw [← he])

/-- At any time the network has put together a beginning of the frames; all of them when the transfer is over. -/
theorem recovered_prefix {s : UlLink} (hr : s.Reached RightAndNoExactFit) :
    ∃ up, s.net.recovered = some up ∧ up <+: s.offered ∧ (s.done = true → up = s.offered) := by
  have f := linkFacts hr
  have hv := netOk_reached hr
  obtain ⟨ps, a, b, c⟩ := carries hr
  have hb := blocks_prefix f hv
  have hsplit : s.composed = s.composed.take s.net.vq ++ s.composed.drop s.net.vq := (List.take_append_drop _ _).symm
  rw [hsplit, List.mapM_append] at a
  cases h1 : (s.composed.take s.net.vq).mapM (fun b => pieces b.ti b.e (b.cv = 0) b.data) with
  | none => rw [h1] at a; cases a
  | some p1 =>
    cases h2 : (s.composed.drop s.net.vq).mapM (fun b => pieces b.ti b.e (b.cv = 0) b.data) with
    | none => rw [h1, h2] at a; cases a
    | some p2 =>
      rw [h1, h2] at a
      have hps : p1 ++ p2 = ps := by simpa using a
      refine ⟨(reassemble [] p1.flatten).1, by rw [UlNet.recovered, hb, h1]; rfl, ?_, fun hd => ?_⟩
      · have hpre : (reassemble [] p1.flatten).1 <+: (reassemble [] ps.flatten).1 := by
          rw [← hps, List.flatten_append, reassemble_append]
          exact List.prefix_append _ _
        refine hpre.trans ?_
        cases hf : s.tx.finished with
        | true => rw [c hf]
        | false =>
          have := b hf []
          simp only [List.append_nil] at this
          rw [← this]
          exact List.prefix_append _ _
      · have hall := f.over hd
        have hle : s.composed.length ≤ s.net.vq := le_vq hv fun n hn => hall n hn
        have hnil : s.composed.drop s.net.vq = [] := List.drop_eq_nil_of_le hle
        rw [hnil] at h2
        have hp2 : p2 = [] := by simpa using h2.symm
        subst hp2
        rw [List.append_nil] at hps
        subst hps
        rw [c (finished_of_done hr hd)]

/-- What the network recovers from uplink transfers, one after the other. -/
def recoveredFrom (ls : List UlLink) : Option (List Octets) := (ls.mapM fun (l : UlLink) => l.net.recovered).map List.flatten

/-- C147: N-PDUs sent by the mobile station in any number of uplink TBFs, over a radio link that loses and delays
blocks and reports, are delivered exactly once, unchanged and in order, when the mobile station is told that each TBF
is complete. -/
def C147Statement : Prop :=
  ∀ (p : Path) (ns : List Octets), p.Ready → Npdus ns → ∃ frames, p.send ns = .ok frames ∧
    ∀ ls : List UlLink, (∀ l ∈ ls, l.Reached RightCv ∧ l.done = true) → ls.flatMap UlLink.offered = frames →
      ∃ up, recoveredFrom ls = some up ∧ p.receive up = .ok ns

theorem recoveredFrom_done : ∀ ls : List UlLink, (∀ l ∈ ls, l.Reached RightAndNoExactFit ∧ l.done = true) →
    recoveredFrom ls = some (ls.flatMap UlLink.offered) := by
  intro ls
  induction ls with
  | nil => intro _; rfl
  | cons l ls ih =>
    intro h
    have hi := ih fun x hx => h x (List.mem_cons_of_mem _ hx)
    obtain ⟨up, u1, _, u2⟩ := recovered_prefix (h l List.mem_cons_self).1
    have u2 := u2 (h l List.mem_cons_self).2
    unfold recoveredFrom at hi ⊢
    rw [Option.map_eq_some_iff] at hi ⊢
    obtain ⟨x, x1, x2⟩ := hi
    exact ⟨l.offered :: x, by rw [List.mapM_cons, u1, x1, u2]; rfl, by rw [List.flatten_cons, x2, List.flatMap_cons]⟩

/-- C147, partial (missing: TBFs whose last frame fills the rest of the last block exactly behind another frame, see
C19). -/
theorem c147_partial (p : Path) (ns : List Octets) (hr : p.Ready) (hns : Npdus ns) :
    ∃ frames, p.send ns = .ok frames ∧
      ∀ ls : List UlLink, (∀ l ∈ ls, l.Reached RightAndNoExactFit ∧ l.done = true) →
        ls.flatMap UlLink.offered = frames →
        ∃ up, recoveredFrom ls = some up ∧ p.receive up = .ok ns := by
  obtain ⟨frames, h1, _, h3, _⟩ := upper_path hr hns
  exact ⟨frames, h1, fun ls hl he => ⟨frames, by rw [recoveredFrom_done ls hl, he], h3⟩⟩

/-- C147 at any time, with the same exception: while a TBF is still going on, the N-PDUs delivered are the first ones,
unchanged and in order. -/
theorem c147_at_any_time (p : Path) (ns : List Octets) (hr : p.Ready) (hns : Npdus ns) :
    ∃ frames, p.send ns = .ok frames ∧
      ∀ (ls : List UlLink) (l : UlLink) (rest : List Octets), (∀ l ∈ ls, l.Reached RightAndNoExactFit ∧ l.done = true) →
        l.Reached RightAndNoExactFit → ls.flatMap UlLink.offered ++ l.offered ++ rest = frames →
        ∃ up got, recoveredFrom (ls ++ [l]) = some up ∧ p.receive up = .ok got ∧ got <+: ns := by
  obtain ⟨frames, h1, _, _, h4⟩ := upper_path hr hns
  refine ⟨frames, h1, fun ls l rest hl hl' he => ?_⟩
  obtain ⟨up, u1, u2, _⟩ := recovered_prefix hl'
  have hrec : recoveredFrom (ls ++ [l]) = some (ls.flatMap UlLink.offered ++ up) := by
    have hd := recoveredFrom_done ls hl
    unfold recoveredFrom at hd ⊢
    rw [Option.map_eq_some_iff] at hd ⊢
    obtain ⟨x, x1, x2⟩ := hd
    exact ⟨x ++ [up], by rw [List.mapM_append, x1]; simp [u1], by simp [x2]⟩
  obtain ⟨t, ht⟩ := u2
  have hpre : frames.take (ls.flatMap UlLink.offered ++ up).length = ls.flatMap UlLink.offered ++ up := by
    rw [← he, ← ht]
    simp only [← List.append_assoc]
    rw [List.append_assoc, List.take_left']
    rfl
  obtain ⟨got, g1, g2⟩ := h4 (ls.flatMap UlLink.offered ++ up).length
  rw [hpre] at g1
  exact ⟨_, got, hrec, g1, g2⟩

/-! ### Concrete transfers -/

/-- A bitmap telling of block 0 alone. -/
def oneReport (final : Bool) : UlAckDesc := ⟨final, 1, [0, 0, 0, 0, 0, 0, 0, 1]⟩

/-- A TBF of a single block, sent, received and acknowledged. -/
theorem one_block {P : UlLink → UlLinkEv → Prop} {q : List Octets} {len : Nat} {b : UlBlock} (hq : ∀ f ∈ q, f ≠ [])
    (h1 : 1 < len) (h2 : len < 64) (hb : createBlock len 0 none q = .ok (b, []))
    (hP : P (UlLink.init q) (.send ⟨len, 0, none, false⟩)) (hP' : ∀ s e, (∀ r, e ≠ .send r) → P s e) :
    ∃ s : UlLink, s.Reached P ∧ s.done = true ∧ s.offered = q ∧ s.net.blocks = [b] := by
  have hne : q ≠ [] := by intro e; subst e; simp [createBlock] at hb
  have r0 : (UlLink.init q).Reached P := .init q hq
  have i0 := LinkInv.init q hq
  have hal : (UlLink.init q).Allowed (.send ⟨len, 0, none, false⟩) := ⟨rfl, hne, by simpa using h1, h2⟩
  obtain ⟨s1, w', bsn, k, n, a0, a1, a2, a3, a4, a5, a6, a7, a8, a9, a10, _⟩ :=
    i0.send ⟨len, 0, none, false⟩ hne (by simp [hdrLen]; omega) h2
  have hk : k = .new := by
    cases k with
    | new => rfl
    | retransmit =>
      obtain ⟨m, _, m2, _⟩ := a1.retransmit rfl
      simp [UlNotes.init] at m2
    | filler =>
      exact absurd a0 (not_filler i0.win rfl (decide_eq_true hne) (by decide))
  obtain ⟨hn, b', x1, x2, x3⟩ := a9 hk
  have hx : (b', s1.tx.q) = (b, []) := by
    have : createBlock len 0 none q = .ok (b', s1.tx.q) := x1
    rw [hb] at this
    injection this with this
    exact this.symm
  injection hx with hx1 hx2
  subst hx1
  have r1 : s1.Reached P := .step r0 hal hP a2
  have hd1 : s1.done = false := a7
  obtain ⟨s2, b1, b2, b3, b4, b5, b6, b7, b8, b9, b10⟩ := a3.upArrives
  have r2 : s2.Reached P := .step r1 ⟨hd1, trivial⟩ (hP' _ _ (fun r h => by cases h)) b1
  have hn0 : n = 0 := hn
  have hg : (s2.net.got 0).isSome := b4 0 (by simp [hn0])
  have hsent : (UlNotes.init.note (.rts ⟨(UlLink.init q).tx.finished, decide ((UlLink.init q).tx.q ≠ []), false⟩)
      (some (bsn, k))).sent = 1 := by rw [hk]; rfl
  have hvr : s2.net.vr = 1 := by
    have l1 := b2.vr_le b2.net (fun _ _ x => x)
    rw [hsent] at l1
    rcases Nat.eq_zero_or_pos s2.net.vr with h0 | h0
    · rw [b2.net.above 0 (by omega)] at hg; cases hg
    · omega
  have hcv : b'.cv = 0 := by
    have := createBlock_clean len 0 none q (by simp [hdrLen]; omega) h2 hne hq
    rw [hb] at this
    injection this with this
    injection this with this _
    rw [this]
  have hc2 : s2.composed = [b'] := by rw [b8, x2]; rfl
  have hg' : s2.net.got 0 = some b' := by
    obtain ⟨c, hc⟩ := Option.isSome_iff_exists.1 hg
    have := b2.got 0 c hc
    rw [hc2] at this
    simp only [List.getElem?_cons_zero, Option.some.injEq] at this
    rw [hc, this]
  have htr : s2.net.Truthful (oneReport true) := by
    refine ⟨by rw [hvr]; rfl, fun k k1 k2 k3 => ?_, fun _ => ⟨0, b', hg', hcv, fun k hk => by omega⟩⟩
    rw [hvr] at k3 ⊢
    have : k = 1 := by omega
    subst this
    rw [hg]
    decide
  obtain ⟨s3, c1, c2⟩ := b2.report (oneReport true) htr
  have hd2 : s2.done = false := by rw [b10]; exact hd1
  have r3 : s3.Reached P := .step r2 ⟨hd2, htr⟩ (hP' _ _ (fun r h => by cases h)) c1
  have hs3 : s3 = { s2 with down := [oneReport true] } := by
    simp only [UlLink.step] at c1
    injection c1 with c1
    rw [← c1, b7, a6]; rfl
  have hfin : s2.tx.finished = true := by rw [b5, x3, hcv]; simp
  refine ⟨_, .step r3 ⟨by rw [hs3]; exact hd2, trivial⟩ (hP' _ .downArrives (fun r h => by cases h)) (by rw [hs3]; rfl), ?_, ?_, ?_⟩
  · simp [UlTx.ackNack, hfin, oneReport]
  · show s2.offered = q
    rw [b9, a8]; rfl
  · show s2.net.blocks = [b']
    have hv := b2.net
    have hq1 : s2.net.vq = 1 := by
      have l1 := (vq_spec s2.net hv).2.2
      have l2 := le_vq hv (k := 1) (fun n hn => by rw [show n = 0 by omega]; exact hg)
      omega
    rw [UlNet.blocks, hq1]
    simp [List.range_succ, hg']

/-- Checks that an event is allowed, and that the countdown value is right without exact fit. -/
def allowedB (s : UlLink) (e : UlLinkEv) : Bool :=
  !s.done && match e with
    | .send r => decide (s.offered ≠ []) && decide ((if r.tlli.isSome then 4 else 0) + 1 < r.len) && decide (r.len < 64) &&
        (match createBlock r.len r.cv r.tlli s.tx.q with
          | .ok (_, q') => decide (r.cv = 0 ↔ q' = [])
          | _ => true) &&
        decide (r.cv = 0 → 2 ≤ s.tx.q.length → hdrLen r.tlli + s.tx.q.flatten.length + (s.tx.q.length - 1) ≠ r.len)
    | .frame f => decide (f ≠ []) && !s.tx.finished
    | .report d => decide (d.ssn = s.net.vr % 128) &&
        ((List.range 65).all fun k => k = 0 || decide (s.net.vr < k) ||
          bitAt d.rbb (64 - k) == (s.net.got (s.net.vr - k)).isSome) &&
        (!d.finalAck || ((List.range s.net.vr).any fun n => decide (n ≤ s.net.vq) &&
          match s.net.got n with
          | some b => decide (b.cv = 0)
          | none => false))
    | _ => true

theorem allowedB_ok {s : UlLink} {e : UlLinkEv} (hv : NetOk s.net) (h : allowedB s e = true) :
    s.Allowed e ∧ RightAndNoExactFit s e := by
  unfold allowedB at h
  rw [Bool.and_eq_true] at h
  obtain ⟨hd, h⟩ := h
  have hd : s.done = false := by simpa using hd
  cases e with
  | send r =>
    simp only [Bool.and_eq_true, decide_eq_true_eq] at h
    obtain ⟨⟨⟨⟨h1, h2⟩, h3⟩, h4⟩, h5⟩ := h
    refine ⟨⟨hd, h1, h2, h3⟩, fun b q' hb => ?_, fun hc h2 => h5 hc h2⟩
    rw [hb] at h4
    simpa using h4
  | frame f =>
    simp only [Bool.and_eq_true, decide_eq_true_eq, Bool.not_eq_true'] at h
    exact ⟨⟨hd, h⟩, trivial, trivial⟩
  | report d =>
    simp only [Bool.and_eq_true, decide_eq_true_eq, List.all_eq_true, List.mem_range] at h
    obtain ⟨⟨h1, h2⟩, h3⟩ := h
    refine ⟨⟨hd, h1, fun k k1 k2 k3 => ?_, fun hf => ?_⟩, trivial, trivial⟩
    · have := h2 k (by omega)
      simp only [Bool.or_eq_true, decide_eq_true_eq, beq_iff_eq] at this
      rcases this with (h0 | h0) | h0
      · omega
      · omega
      · exact h0
    · rw [hf] at h3
      simp only [Bool.not_true, Bool.false_or, List.any_eq_true, List.mem_range, Bool.and_eq_true, decide_eq_true_eq] at h3
      obtain ⟨n, _, n2, n3⟩ := h3
      cases hg : s.net.got n with
      | none => rw [hg] at n3; cases n3
      | some b =>
        rw [hg] at n3
        exact ⟨n, b, hg, by simpa using n3, fun k hk => (vq_spec s.net hv).1 k (by omega)⟩
  | upArrives => exact ⟨⟨hd, trivial⟩, trivial, trivial⟩
  | upLost => exact ⟨⟨hd, trivial⟩, trivial, trivial⟩
  | downArrives => exact ⟨⟨hd, trivial⟩, trivial, trivial⟩
  | downLost => exact ⟨⟨hd, trivial⟩, trivial, trivial⟩

/-- Runs events as long as they are allowed. -/
def runB : List UlLinkEv → UlLink → Option UlLink
  | [], s => some s
  | e :: es, s => if allowedB s e then (match s.step e with | .ok s' => runB es s' | _ => none) else none

theorem runB_reached : ∀ (es : List UlLinkEv) {s s' : UlLink}, s.Reached RightAndNoExactFit → runB es s = some s' →
    s'.Reached RightAndNoExactFit := by
  intro es
  induction es with
  | nil =>
    intro s s' hr h
    simp only [runB, Option.some.injEq] at h
    rw [← h]; exact hr
  | cons e es ih =>
    intro s s' hr h
    unfold runB at h
    by_cases ha : allowedB s e = true
    · rw [if_pos ha] at h
      obtain ⟨a1, a2⟩ := allowedB_ok (netOk_reached hr) ha
      cases hs : s.step e with
      | ok s1 => rw [hs] at h; exact ih (.step hr a1 a2 hs) h
      | err x => rw [hs] at h; cases h
      | ub x => rw [hs] at h; cases h
    · rw [if_neg ha] at h; cases h

/-- Two frames in three blocks of 6 octets; the first block is lost, a report says so, it is sent again, a report is
lost, the last block is lost the first time. -/
def lossyEvents : List UlLinkEv :=
  [.send ⟨6, 15, none, false⟩, .upLost, .frame [6, 7, 8, 9], .send ⟨6, 1, none, false⟩, .upArrives, .report ⟨false, 2, [0, 0, 0, 0, 0, 0, 0, 1]⟩,
   .downArrives, .send ⟨6, 0, none, false⟩, .upArrives, .report ⟨false, 2, [0, 0, 0, 0, 0, 0, 0, 3]⟩, .downLost,
   .send ⟨6, 0, none, false⟩, .upLost, .send ⟨6, 0, none, false⟩, .send ⟨6, 0, none, false⟩, .upArrives, .upArrives,
   .send ⟨6, 0, none, false⟩, .upArrives, .report ⟨true, 3, [0, 0, 0, 0, 0, 0, 0, 7]⟩, .downArrives]

/-- C145 to C147 are not vacuous: this transfer, with losses in both directions, can happen, and is completed. -/
example : ∃ s : UlLink, s.Reached RightAndNoExactFit ∧ s.done = true ∧
    s.net.recovered = some [[1, 2, 3, 4, 5, 1, 2, 3, 4], [6, 7, 8, 9]] ∧ s.net.blocks.length = 3 := by
  have h : (match runB lossyEvents (UlLink.init [[1, 2, 3, 4, 5, 1, 2, 3, 4]]) with
      | some s => s.done && decide (s.net.recovered = some [[1, 2, 3, 4, 5, 1, 2, 3, 4], [6, 7, 8, 9]]) &&
          decide (s.net.blocks.length = 3)
      | none => false) = true := by decide +kernel
  cases hr : runB lossyEvents (UlLink.init [[1, 2, 3, 4, 5, 1, 2, 3, 4]]) with
  | none => rw [hr] at h; cases h
  | some s =>
    rw [hr] at h
    simp only [Bool.and_eq_true, decide_eq_true_eq] at h
    exact ⟨s, runB_reached _ (.init _ (by simp)) hr, h.1.1, h.1.2, h.2⟩

/-- C147 is violated: the same two N-PDUs as for C144; the mobile station is told that the TBF is complete, and the
second N-PDU is not delivered. -/
theorem c147_violated : ¬ C147Statement := by
  intro H
  have hn : Npdus [[1, 2, 3, 4], [5, 6, 7, 8, 9]] := by
    intro n hn
    simp only [List.mem_cons, List.not_mem_nil, or_false] at hn
    rcases hn with rfl | rfl <;> exact ⟨by decide, by decide⟩
  obtain ⟨frames, g1, g2⟩ := H (samplePath true) _ (samplePath_ready true) hn
  obtain ⟨frames', g1', g3, _⟩ := upper_path (samplePath_ready true) hn
  rw [g1] at g1'
  injection g1' with g1'
  subst g1'
  have h : (match (samplePath true).send [[1, 2, 3, 4], [5, 6, 7, 8, 9]] with
      | .ok fs => (match createBlock 30 0 none fs with
        | .ok (b, []) => (match recoveredAll [⟨fs, [], [b]⟩] with
          | some up => (match (samplePath true).receive up with
            | .ok got => decide (got = [[1, 2, 3, 4]])
            | _ => false)
          | none => false)
        | _ => false)
      | _ => false) = true := by decide +kernel
  rw [g1] at h
  simp only at h
  cases hb : createBlock 30 0 none frames with
  | err e => rw [hb] at h; cases h
  | ub f => rw [hb] at h; cases h
  | ok x =>
    obtain ⟨b, q⟩ := x
    rw [hb] at h
    cases q with
    | cons _ _ => cases h
    | nil =>
      obtain ⟨s, k1, k2, k3, k4⟩ := one_block (P := RightCv) g3 (by decide) (by decide) hb
        (by
          intro b' q' hq'
          have : createBlock 30 0 none frames = .ok (b', q') := hq'
          rw [hb] at this
          injection this with this
          injection this with _ this
          simp [← this])
        (by
          intro s e he
          cases e with
          | send r => exact absurd rfl (he r)
          | _ => trivial)
      obtain ⟨up, u1, u2⟩ := g2 [s] (by
        intro l hl
        rw [List.mem_singleton.1 hl]
        exact ⟨k1, k2⟩) (by simp [k3])
      have hsame : recoveredAll [⟨frames, [], [b]⟩] = some up := by
        rw [← u1]
        simp only [recoveredAll, recoveredFrom, UlNet.recovered, List.mapM_cons, List.mapM_nil, k4]
      simp only [hsame, u2] at h
      simp at h

end Verif.Props
