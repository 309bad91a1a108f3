import Verif.Rlc.UlLinkInv
import Verif.Props.RlcSegment

/-!
# C145, C146: an uplink transfer over a link that loses and delays blocks and reports
-/
namespace Verif.Props

open Verif.Spec Verif.Rlc

/-- What holds in every state that can be reached. -/
structure LinkFacts (s : UlLink) : Prop where
  got : ∀ n b, s.net.got n = some b → s.composed[n]? = some b
  live : s.done = false → ∃ h ns sn, LinkInv s h ns sn
  over : s.done = true → ∀ n, n < s.composed.length → (s.net.got n).isSome

theorem linkFacts_init (q : List Octets) (hq : ∀ f ∈ q, f ≠ []) : LinkFacts (UlLink.init q) :=
  ⟨(LinkInv.init q hq).got, fun _ => ⟨_, _, _, LinkInv.init q hq⟩, fun h => by simp [UlLink.init] at h⟩

theorem linkFacts_step {s : UlLink} (f : LinkFacts s) {e : UlLinkEv} (ha : s.Allowed e) :
    ∃ s', s.step e = .ok s' ∧ LinkFacts s' := by
  obtain ⟨hd, ha⟩ := ha
  obtain ⟨h, ns, sn, i⟩ := f.live hd
  have mk : ∀ {s' : UlLink} {h' ns' sn'}, LinkInv s' h' ns' sn' → s'.done = s.done → LinkFacts s' := by
    intro s' h' ns' sn' j hj
    exact ⟨j.got, fun _ => ⟨_, _, _, j⟩, fun hx => by rw [hj, hd] at hx; cases hx⟩
  cases e with
  | send r =>
    obtain ⟨h0, h1, h2⟩ := ha
    obtain ⟨s', w', bsn, k, n, _, _, e1, e2, _, _, _, e3, _⟩ := i.send r h0 (by unfold hdrLen; omega) h2
    exact ⟨s', e1, mk e2 e3⟩
  | frame x =>
    obtain ⟨s', e1, e2⟩ := i.frame x ha.1
    refine ⟨s', e1, mk e2 ?_⟩
    injection e1 with e1; rw [← e1]
  | upArrives =>
    obtain ⟨s', e1, e2, _, _, _, _, _, _, _, e3⟩ := i.upArrives
    exact ⟨s', e1, mk e2 e3⟩
  | upLost =>
    obtain ⟨s', e1, e2⟩ := i.upLost
    refine ⟨s', e1, mk e2 ?_⟩
    injection e1 with e1; rw [← e1]
  | report d =>
    obtain ⟨s', e1, e2⟩ := i.report d ha
    refine ⟨s', e1, mk e2 ?_⟩
    injection e1 with e1; rw [← e1]
  | downLost =>
    obtain ⟨s', e1, e2⟩ := i.downLost
    refine ⟨s', e1, mk e2 ?_⟩
    injection e1 with e1; rw [← e1]
  | downArrives =>
    obtain ⟨s', e1, a1, a2, _, _, _, _, _, e2, e3⟩ := i.downArrives hd
    refine ⟨s', e1, ⟨?_, fun hx => ?_, fun hx => ?_⟩⟩
    · rw [a1, a2]; exact i.got
    · obtain ⟨h', j, _⟩ := e2 hx; exact ⟨_, _, _, j⟩
    · rw [a1, a2]; exact (e3 hx).2

theorem linkFacts {P : UlLink → UlLinkEv → Prop} {s : UlLink} (hr : s.Reached P) : LinkFacts s := by
  induction hr with
  | init q hq => exact linkFacts_init q hq
  | step _ ha _ he ih =>
    obtain ⟨s', e1, e2⟩ := linkFacts_step ih ha
    rw [he] at e1
    injection e1 with e1
    rw [e1]; exact e2

/-- **C145.** Whatever blocks and reports the radio link loses or delays, at any time: the network holds as block
`n` nothing but what the mobile station composed as its `n`-th block; the mobile station never fails; and when it
regards the transfer as complete, or everything sent as acknowledged, the network holds exactly what was
composed. -/
theorem c145_reliable (s : UlLink) (hr : s.Reached fun _ _ => True) :
    (∀ n b, s.net.got n = some b → s.composed[n]? = some b) ∧
    (s.done = true ∨ s.tx.w.empty = true → ∀ n, s.net.got n = s.composed[n]?) ∧
    (∀ e, s.Allowed e → ∃ s', s.step e = .ok s') := by
  have f := linkFacts hr
  refine ⟨f.got, fun hx => ?_, fun e he => ?_⟩
  · have hall : ∀ n, n < s.composed.length → (s.net.got n).isSome := by
      cases hd : s.done with
      | true => exact f.over hd
      | false =>
        rw [hd] at hx
        obtain ⟨h, ns, sn, i⟩ := f.live hd
        rcases hx with hx | hx
        · cases hx
        · have he := i.win.empty.mp hx
          intro n hn
          exact i.acked n ((base_spec h).2.1 n (by rw [← he, i.sent]; exact hn))
    intro n
    by_cases hn : n < s.composed.length
    · obtain ⟨b, hb⟩ := Option.isSome_iff_exists.1 (hall n hn)
      rw [hb, f.got n b hb]
    · rw [List.getElem?_eq_none (by omega)]
      cases hg : s.net.got n with
      | none => rfl
      | some b =>
        have := (List.getElem?_eq_some_iff.1 (f.got n b hg)).1
        omega
  · obtain ⟨s', e1, _⟩ := linkFacts_step f he
    exact ⟨s', e1⟩

/-! ### The transfer completes -/

theorem run_append (as bs : List UlLinkEv) (s : UlLink) :
    UlLink.run (as ++ bs) s = (UlLink.run as s).bind (UlLink.run bs) := by
  induction as generalizing s with
  | nil => rfl
  | cons e as ih =>
    simp only [List.cons_append, UlLink.run]
    cases s.step e with
    | ok s' => simp only [Res.bind_ok]; exact ih s'
    | err _ => rfl
    | ub _ => rfl

/-- All blocks under way arrive. -/
theorem run_up : ∀ (k : Nat) {s : UlLink} {h : UlNotes} {ns : List Nat} {sn : List UlNet}, LinkInv s h ns sn →
    s.up.length ≤ k →
    ∃ s', UlLink.run (List.replicate k .upArrives) s = .ok s' ∧ LinkInv s' h [] sn ∧ Has s'.net s.net ∧
      (∀ n ∈ ns, (s'.net.got n).isSome) ∧ s'.tx = s.tx ∧ s'.up = [] ∧ s'.down = s.down ∧
      s'.composed = s.composed ∧ s'.offered = s.offered ∧ s'.done = s.done := by
  intro k
  induction k with
  | zero =>
    intro s h ns sn i hk
    have hu : s.up = [] := List.length_eq_zero_iff.1 (by omega)
    have hn : ns = [] := by
      have := i.up.length_eq
      rw [hu] at this
      exact List.length_eq_zero_iff.1 this.symm
    subst hn
    exact ⟨s, rfl, i, fun _ _ x => x, by simp, rfl, hu, rfl, rfl, rfl, rfl⟩
  | succ k ih =>
    intro s h ns sn i hk
    obtain ⟨s1, e1, e2, e3, e4, e5, e6, e7, e8, e9, e10⟩ := i.upArrives
    obtain ⟨s2, f1, f2, f3, f4, f5, f6, f7, f8, f9, f10⟩ := ih e2 (by rw [e6, List.length_drop]; omega)
    refine ⟨s2, ?_, f2, f3.trans e3, ?_, f5.trans e5, f6, f7.trans e7, f8.trans e8, f9.trans e9, f10.trans e10⟩
    · rw [List.replicate_succ, UlLink.run, e1]; exact f1
    · intro n hn
      cases ns with
      | nil => cases hn
      | cons m ns =>
        rcases List.mem_cons.1 hn with rfl | hn
        · exact f3.isSome (e4 n rfl)
        · exact f4 n hn

/-- Once over, it stays over. -/
theorem run_down_over : ∀ (k : Nat) {s : UlLink}, s.done = true →
    ∃ s', UlLink.run (List.replicate k .downArrives) s = .ok s' ∧ s'.done = true := by
  intro k
  induction k with
  | zero => intro s hs; exact ⟨s, rfl, hs⟩
  | succ k ih =>
    intro s hs
    rw [List.replicate_succ]
    cases hd : s.down with
    | nil =>
      obtain ⟨s', e1, e2⟩ := ih hs
      exact ⟨s', by simp only [UlLink.run, UlLink.step, hd, Res.bind_ok]; exact e1, e2⟩
    | cons d down =>
      obtain ⟨s', e1, e2⟩ := ih (s := { s with down := down, tx := (s.tx.ackNack d).1, done := s.done || (s.tx.ackNack d).2 })
        (by simp [hs])
      exact ⟨s', by simp only [UlLink.run, UlLink.step, hd, Res.bind_ok]; exact e1, e2⟩

/-- All reports under way arrive; the last one tells the present state of the network. -/
theorem run_down : ∀ (k : Nat) {s : UlLink} {h : UlNotes} {ns : List Nat} {sn : List UlNet} {t : UlNet} {d : UlAckDesc},
    LinkInv s h ns sn → s.done = false → s.down.length ≤ k → s.down.getLast? = some d → sn.getLast? = some t →
    ∃ s', UlLink.run (List.replicate k .downArrives) s = .ok s' ∧
      (s'.done = true ∨ (s'.done = false ∧ d.finalAck = false ∧ (∃ h', LinkInv s' h' ns [] ∧
        ∀ n, (t.got n).isSome → h'.news n = .acked) ∧ s'.net = s.net ∧ s'.composed = s.composed ∧
        s'.offered = s.offered ∧ s'.tx.q = s.tx.q ∧ s'.tx.finished = s.tx.finished ∧ s'.up = s.up ∧ s'.down = [])) := by
  intro k
  induction k with
  | zero =>
    intro s h ns sn t d i hd hk hl
    have : s.down = [] := List.length_eq_zero_iff.1 (by omega)
    rw [this] at hl; cases hl
  | succ k ih =>
    intro s h ns sn t d i hd hk hl ht
    rw [List.replicate_succ]
    obtain ⟨s1, e1, a1, a2, a3, a4, a5, a6, a7, e2, e3⟩ := i.downArrives hd
    have hlen := i.down.length_eq
    cases hd1 : s1.done with
    | true =>
      obtain ⟨s', f1, f2⟩ := run_down_over k hd1
      exact ⟨s', by rw [UlLink.run, e1]; exact f1, Or.inl f2⟩
    | false =>
      obtain ⟨h', j, _, j2, j3⟩ := e2 hd1
      cases hdn : s.down with
      | nil => rw [hdn] at hl; cases hl
      | cons d0 down =>
        cases hsn : sn with
        | nil => rw [hsn] at ht; cases ht
        | cons t0 sn' =>
          rw [hdn] at hl a7 j2 hlen hk
          rw [hsn] at ht j j3 hlen
          simp only [List.length_cons] at hk hlen
          simp only [List.drop_succ_cons, List.drop_zero] at a7 j
          cases hdn2 : down with
          | cons d1 down' =>
            have hs2 : sn' ≠ [] := by
              intro he; subst he; subst hdn2; simp at hlen
            obtain ⟨s', f1, f2⟩ := ih (t := t) (d := d) j hd1 (by rw [a7]; omega)
              (by rw [a7, hdn2]; rw [hdn2, List.getLast?_cons_cons] at hl; exact hl)
              (by
                cases sn' with
                | nil => exact absurd rfl hs2
                | cons t1 sn' => rw [List.getLast?_cons_cons] at ht; exact ht)
            refine ⟨s', by rw [UlLink.run, e1]; exact f1, ?_⟩
            rcases f2 with f2 | ⟨g0, g1, g2, g3, g4, g5, g6, g7, g8, g9⟩
            · exact Or.inl f2
            · exact Or.inr ⟨g0, g1, g2, g3.trans a1, g4.trans a2, g5.trans a3, g6.trans a4, g7.trans a5, g8.trans a6, g9⟩
          | nil =>
            subst hdn2
            have hs2 : sn' = [] := List.length_eq_zero_iff.1 (by simp only [List.length_nil] at hlen; omega)
            subst hs2
            simp only [List.getLast?_singleton, Option.some.injEq] at hl ht
            subst hl ht
            have hrun : ∀ m, UlLink.run (List.replicate m .downArrives) s1 = .ok s1 := by
              intro m
              induction m with
              | zero => rfl
              | succ m ihm => rw [List.replicate_succ, UlLink.run]; simp only [UlLink.step, a7, Res.bind_ok]; exact ihm
            refine ⟨s1, by rw [UlLink.run, e1]; exact hrun k, Or.inr ⟨hd1, j2 d0 rfl, ⟨h', j, ?_⟩, a1, a2, a3, a4, a5, a6, a7⟩⟩
            intro n hn
            have sp := i.snaps t0 (by rw [hsn]; exact List.mem_cons_self)
            rw [j3 t0 rfl n]
            by_cases hb : n < h.base
            · exact Or.inl ((base_spec h).2.1 n hb)
            · refine Or.inr ⟨by omega, ?_, hn⟩
              rcases Nat.lt_or_ge n t0.vr with hv | hv
              · exact hv
              · rw [sp.1.above n hv] at hn; cases hn

/-- The blocks composed that the network does not have. -/
def missing (s : UlLink) : Nat := ((List.range s.composed.length).filter fun n => (s.net.got n).isNone).length

theorem missing_le {l l' : Nat} {g g' : Nat → Option UlBlock} (hl : l ≤ l')
    (hnew : ∀ n, l ≤ n → n < l' → (g' n).isSome) (hg : ∀ n, (g n).isSome → (g' n).isSome) :
    ((List.range l').filter fun n => (g' n).isNone).length ≤ ((List.range l).filter fun n => (g n).isNone).length := by
  obtain ⟨d, rfl⟩ := Nat.le.dest hl
  rw [List.range_add, List.filter_append]
  have : ((List.range d).map (l + ·)).filter (fun n => (g' n).isNone) = [] := by
    rw [List.filter_eq_nil_iff]
    intro a ha
    simp only [List.mem_map, List.mem_range] at ha
    obtain ⟨x, hx, rfl⟩ := ha
    have := hnew (l + x) (by omega) (by omega)
    cases hg' : g' (l + x) with
    | none => rw [hg'] at this; cases this
    | some b => simp
  rw [this, List.append_nil, ← List.countP_eq_length_filter, ← List.countP_eq_length_filter]
  refine List.countP_mono_left fun a _ ha => ?_
  cases hga : g a with
  | none => rfl
  | some b =>
    have := hg a (by rw [hga]; rfl)
    cases hg' : g' a with
    | none => rw [hg'] at this; cases this
    | some c => rw [hg'] at ha; cases ha

theorem missing_lt {l : Nat} {g g' : Nat → Option UlBlock} {n : Nat} (hn : n < l) (h0 : g n = none)
    (h1 : (g' n).isSome) (hg : ∀ n, (g n).isSome → (g' n).isSome) :
    ((List.range l).filter fun n => (g' n).isNone).length < ((List.range l).filter fun n => (g n).isNone).length := by
  have hs : ∀ k, k ≤ n → ((List.range k).filter fun n => (g' n).isNone).length ≤
      ((List.range k).filter fun n => (g n).isNone).length := fun k _ => missing_le (Nat.le_refl _) (by omega) hg
  have key : ∀ d, ((List.range (n + 1 + d)).filter fun n => (g' n).isNone).length <
      ((List.range (n + 1 + d)).filter fun n => (g n).isNone).length := by
    intro d
    induction d with
    | zero =>
      rw [Nat.add_zero, List.range_succ, List.filter_append, List.filter_append]
      have := hs n (Nat.le_refl _)
      obtain ⟨b, hb⟩ := Option.isSome_iff_exists.1 h1
      simp [h0, hb]
      omega
    | succ d ih =>
      rw [← Nat.add_assoc, List.range_succ, List.filter_append, List.filter_append, List.length_append, List.length_append]
      have : (([n + 1 + d] : List Nat).filter fun n => (g' n).isNone).length ≤
          (([n + 1 + d] : List Nat).filter fun n => (g n).isNone).length := by
        cases hg0 : g (n + 1 + d) with
        | none =>
          refine Nat.le_trans (List.length_filter_le _ _) ?_
          simp [hg0]
        | some b =>
          have := hg (n + 1 + d) (by rw [hg0]; rfl)
          obtain ⟨c, hc⟩ := Option.isSome_iff_exists.1 this
          simp [hg0, hc]
      omega
  obtain ⟨d, rfl⟩ := Nat.le.dest hn
  exact key d

/-- The countdown has been right so far: the TBF is finished exactly when the data has been taken. -/
def Drained (s : UlLink) : Prop := s.composed ≠ [] → (s.tx.q = [] ↔ s.tx.finished = true)

/-- One round without losses, from any state that can be reached. -/
theorem calm_round {s : UlLink} {h : UlNotes} {ns : List Nat} {sn : List UlNet} (i : LinkInv s h ns sn)
    (hd : s.done = false) (hdr : Drained s) (r : UlTxReq) (ha : s.Allowed (.send r)) (hcv : RightCv s (.send r)) :
    ∃ s1, UlLink.run (s.sendRound r) s = .ok s1 ∧ ∀ d, s1.net.FullReport d →
      ∃ s', UlLink.run (s1.reportRound d) s1 = .ok s' ∧
        (s'.done = true ∨ (s'.done = false ∧ Drained s' ∧ ∃ h', LinkInv s' h' [] [] ∧
          (∀ n, (s'.net.got n).isSome → h'.news n = .acked) ∧
          s'.tx.q.flatten.length + missing s' ≤ s.tx.q.flatten.length + missing s ∧
          ((∀ n, (s.net.got n).isSome → h.news n = .acked) →
            s'.tx.q.flatten.length + missing s' < s.tx.q.flatten.length + missing s))) := by
  obtain ⟨_, h0, h1, h2⟩ := ha
  obtain ⟨sa, w', bsn, k, n, a0, a1, a2, a3, a4, a5, a6, a7, a8, a9, a10, a11⟩ := i.send r h0 (by unfold hdrLen; omega) h2
  have hup : sa.up.length ≤ s.up.length + 1 := by
    have h1 := a3.up.length_eq
    have h2 := i.up.length_eq
    rw [List.length_append] at h1
    simp only [List.length_cons, List.length_nil] at h1
    omega
  obtain ⟨s1, b1, b2, b3, b4, b5, b6, b7, b8, b9, b10⟩ := run_up (s.up.length + 1) a3 hup
  have hd1 : s1.done = false := by rw [b10, a7]; exact hd
  refine ⟨s1, by unfold UlLink.sendRound; rw [UlLink.run, a2]; exact b1, fun d hfull => ?_⟩
  obtain ⟨sb, c1, c2⟩ := b2.report d hfull.1
  have hsb : sb = { s1 with down := s1.down ++ [d] } := by
    simp only [UlLink.step] at c1
    injection c1 with c1
    exact c1.symm
  obtain ⟨s', e1, e2⟩ := run_down (s1.down.length + 1) (t := s1.net) (d := d) c2 (by rw [hsb]; exact hd1)
    (by rw [hsb]; simp) (by rw [hsb]; simp) (by simp)
  refine ⟨s', by unfold UlLink.reportRound; rw [UlLink.run, c1]; exact e1, ?_⟩
  rcases e2 with e2 | ⟨e2, e3, ⟨h', e4, e5⟩, e6, e7, e8, e9, e10, e11, e12⟩
  · exact Or.inl e2
  right
  have hnet : s'.net = s1.net := by rw [e6, hsb]
  have hcomp : s'.composed = sa.composed := by rw [e7, hsb]; exact b8
  have hq : s'.tx.q = sa.tx.q := by rw [e9, hsb, b5]
  have hfin : s'.tx.finished = sa.tx.finished := by rw [e10, hsb, b5]
  have hhas : Has s1.net s.net := by rw [← a5]; exact b3
  have hgot : ∀ m, (s.net.got m).isSome → (s'.net.got m).isSome := fun m hm => by rw [hnet]; exact hhas.isSome hm
  have hgn : (s'.net.got n).isSome := by rw [hnet]; exact b4 n (by simp)
  have hnotc : ¬ s1.net.Complete := fun hc => by
    have := hfull.2 hc
    rw [e3] at this; cases this
  have hdr' : Drained s' := by
    unfold Drained
    rw [hcomp, hq, hfin]
    by_cases hk : k = .new
    · obtain ⟨_, b, x1, x2, x3⟩ := a9 hk
      intro _
      have hnf : s.tx.finished = false := (a1.new hk).2.2.2.1
      rw [x3, hnf, Bool.false_or, decide_eq_true_eq]
      have := hcv b sa.tx.q x1
      have hbcv : b.cv = r.cv := by
        have hqn : s.tx.q ≠ [] := by simpa using (a1.new hk).2.2.1
        rw [createBlock_clean r.len r.cv r.tlli s.tx.q (by unfold hdrLen; omega) h2 hqn i.frames] at x1
        injection x1 with x1
        injection x1 with x1 _
        rw [← x1]
      rw [hbcv]
      exact this.symm
    · obtain ⟨x1, x2, x3⟩ := a10 hk
      rw [x1, x2, x3]; exact hdr
  refine ⟨e2, hdr', h', ?_, by rw [hnet]; exact e5, ?_⟩
  · exact e4
  by_cases hk : k = .new
  · obtain ⟨hn, b, x1, x2, _⟩ := a9 hk
    have hqn : s.tx.q ≠ [] := by simpa using (a1.new hk).2.2.1
    obtain ⟨b', q', y1, _, _, _, y2⟩ := c19_encoder_progress r.len r.cv r.tlli s.tx.q (by unfold hdrLen; omega) h2 hqn i.frames
    rw [x1] at y1
    injection y1 with y1
    injection y1 with _ y1
    have hm : missing s' ≤ missing s := by
      unfold missing
      refine missing_le (by rw [hcomp, x2]; simp) ?_ hgot
      intro m hm1 hm2
      rw [hcomp, x2, List.length_append] at hm2
      simp only [List.length_cons, List.length_nil] at hm2
      have : m = n := by rw [hn, i.sent]; omega
      rw [this]; exact hgn
    rw [← y1] at y2
    rw [hq]
    exact ⟨by omega, fun _ => by omega⟩
  · obtain ⟨x1, x2, x3⟩ := a10 hk
    have hm : missing s' ≤ missing s := by
      unfold missing
      rw [hcomp, x1]
      exact missing_le (Nat.le_refl _) (by omega) hgot
    rw [hq, x2]
    refine ⟨by omega, fun hsync => ?_⟩
    have : missing s' < missing s := by
      cases k with
      | new => exact absurd rfl hk
      | retransmit =>
        obtain ⟨y1, y2, y3⟩ := a11 rfl
        unfold missing
        rw [hcomp, x1]
        refine missing_lt (n := n) (by rw [← i.sent]; exact y2) ?_ hgn hgot
        cases hg : s.net.got n with
        | none => rfl
        | some b => exact absurd (hsync n (by rw [hg]; rfl)) y3
      | filler =>
        exfalso
        obtain ⟨_, _, y3⟩ := a1.filler rfl
        have hb := base_spec h
        have hcne : s.composed ≠ [] := by
          intro hc
          have hqo := i.start hc
          have hf : s.tx.finished = false := by
            cases hf : s.tx.finished with
            | false => rfl
            | true =>
              obtain ⟨l, b, e, _⟩ := i.fin hf
              rw [hc] at e
              have := congrArg List.length e
              simp at this
          have hs0 : h.sent = 0 := by rw [i.sent, hc]; rfl
          exact not_filler i.win (c := ⟨s.tx.finished, decide (s.tx.q ≠ []), r.preemptive⟩) hf (by simp [hqo, h0]) (by omega) a0
        by_cases hlt : h.base < h.sent
        · obtain ⟨z1, _, z2, _⟩ := y3 hlt
          simp only [decide_eq_false_iff_not, not_not] at z1 z2
          have := (hdr hcne).1 z2
          rw [z1] at this; cases this
        · have heq : h.base = h.sent := by omega
          have hf : s.tx.finished = true := by
            cases hf : s.tx.finished with
            | true => rfl
            | false =>
              exfalso
              have hqn : s.tx.q ≠ [] := fun hx => by
                have := (hdr hcne).1 hx
                rw [hf] at this; cases this
              exact not_filler i.win (c := ⟨s.tx.finished, decide (s.tx.q ≠ []), r.preemptive⟩) hf (by simp [hqn]) heq a0
          obtain ⟨l, b, z1, z2, _⟩ := i.fin hf
          apply hnotc
          have hall : ∀ m, m < s.composed.length → (s1.net.got m).isSome := fun m hm =>
            hhas.isSome (i.acked m (hb.2.1 m (by rw [heq, i.sent]; exact hm)))
          have hlen : s.composed.length = l.length + 1 := by rw [z1]; simp
          obtain ⟨c, hc⟩ := Option.isSome_iff_exists.1 (hall l.length (by omega))
          have hc' := b2.got _ _ hc
          rw [b8, x1, z1] at hc'
          simp only [List.getElem?_append_right (Nat.le_refl _), Nat.sub_self, List.getElem?_cons_zero, Option.some.injEq] at hc'
          subst hc'
          exact ⟨l.length, b, hc, z2, fun m hm => hall m (by omega)⟩
    omega

theorem completes_synced : ∀ (m : Nat) {s : UlLink} {h : UlNotes} {ns : List Nat} {sn : List UlNet},
    LinkInv s h ns sn → s.done = false → Drained s → (∀ n, (s.net.got n).isSome → h.news n = .acked) →
    s.tx.q.flatten.length + missing s < m → s.Completes := by
  intro m
  induction m with
  | zero => intro s h ns sn _ _ _ _ hm; omega
  | succ m ih =>
    intro s h ns sn i hd hdr hs hm
    refine .round (fun r ha hcv => ?_) ?_
    · obtain ⟨s1, e1, e2⟩ := calm_round i hd hdr r ha hcv
      exact ⟨s1, e1, fun d hfull => by obtain ⟨s', f, _⟩ := e2 d hfull; exact ⟨s', f⟩⟩
    · rintro s' ⟨r, s1, d, ha, hcv, g1, g2, g3⟩
      obtain ⟨s1', e1, e2⟩ := calm_round i hd hdr r ha hcv
      rw [g1] at e1
      injection e1 with e1
      subst e1
      obtain ⟨s2, f1, f2⟩ := e2 d g2
      rw [g3] at f1
      injection f1 with f1
      subst f1
      rcases f2 with f2 | ⟨f2, f3, h', f4, f5, _, f7⟩
      · exact .over f2
      · have := f7 hs
        exact ih f4 f2 f3 f5 (by omega)

theorem drained {s : UlLink} (hr : s.Reached RightCv) : s.done = false → Drained s := by
  induction hr with
  | init q hq => intro _ hx; exact absurd rfl hx
  | @step s s' e hr' ha hp he ih =>
    intro hd'
    have f := linkFacts hr'
    obtain ⟨hd, ha'⟩ := ha
    have ih := ih hd
    obtain ⟨h, ns, sn, i⟩ := f.live hd
    cases e with
    | send r =>
      obtain ⟨h0, h1, h2⟩ := ha'
      obtain ⟨sa, w', bsn, k, n, _, a1, a2, _, _, _, _, _, _, a9, a10, _⟩ := i.send r h0 (by unfold hdrLen; omega) h2
      rw [he] at a2
      injection a2 with a2
      subst a2
      by_cases hk : k = .new
      · obtain ⟨_, b, x1, x2, x3⟩ := a9 hk
        intro _
        have hnf : s.tx.finished = false := (a1.new hk).2.2.2.1
        rw [x3, hnf, Bool.false_or, decide_eq_true_eq]
        have hbcv : b.cv = r.cv := by
          have hqn : s.tx.q ≠ [] := by simpa using (a1.new hk).2.2.1
          rw [createBlock_clean r.len r.cv r.tlli s.tx.q (by unfold hdrLen; omega) h2 hqn i.frames] at x1
          injection x1 with x1
          injection x1 with x1 _
          rw [← x1]
        rw [hbcv]
        exact (hp b _ x1).symm
      · obtain ⟨x1, x2, x3⟩ := a10 hk
        unfold Drained
        rw [x1, x2, x3]; exact ih
    | frame x =>
      simp only [UlLink.step] at he
      injection he with he
      subst he
      intro hc
      simp only [List.append_eq_nil_iff, List.cons_ne_nil, and_false, false_iff, Bool.not_eq_true]
      exact ha'.2
    | upArrives =>
      obtain ⟨sa, e1, _, _, _, e5, _, _, e8, _⟩ := i.upArrives
      rw [he] at e1
      injection e1 with e1
      subst e1
      unfold Drained
      rw [e5, e8]; exact ih
    | upLost =>
      simp only [UlLink.step] at he
      injection he with he
      subst he
      exact ih
    | report d =>
      simp only [UlLink.step] at he
      injection he with he
      subst he
      exact ih
    | downLost =>
      simp only [UlLink.step] at he
      injection he with he
      subst he
      exact ih
    | downArrives =>
      obtain ⟨sa, e1, _, a2, _, a4, a5, _⟩ := i.downArrives hd
      rw [he] at e1
      injection e1 with e1
      subst e1
      unfold Drained
      rw [a2, a4, a5]; exact ih

/-- **C146.** From every state a transfer can get into, with whatever losses and delays before, once the radio
link loses nothing any more, the transfer comes to its end after finitely many rounds. -/
theorem c146_completes (s : UlLink) (hr : s.Reached RightCv) : s.Completes := by
  have f := linkFacts hr
  cases hd : s.done with
  | true => exact .over hd
  | false =>
    obtain ⟨h, ns, sn, i⟩ := f.live hd
    have hdr := drained hr hd
    refine .round (fun r ha hcv => ?_) ?_
    · obtain ⟨s1, e1, e2⟩ := calm_round i hd hdr r ha hcv
      exact ⟨s1, e1, fun d hfull => by obtain ⟨s', f, _⟩ := e2 d hfull; exact ⟨s', f⟩⟩
    · rintro s' ⟨r, s1, d, ha, hcv, g1, g2, g3⟩
      obtain ⟨s1', e1, e2⟩ := calm_round i hd hdr r ha hcv
      rw [g1] at e1
      injection e1 with e1
      subst e1
      obtain ⟨s2, f1, f2⟩ := e2 d g2
      rw [g3] at f1
      injection f1 with f1
      subst f1
      rcases f2 with f2 | ⟨f2, f3, h', f4, f5, _, _⟩
      · exact .over f2
      · exact completes_synced _ f4 f2 f3 f5 (Nat.lt_succ_self _)

end Verif.Props
