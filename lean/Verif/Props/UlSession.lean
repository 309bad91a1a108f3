import Verif.Spec.UlSession
import Verif.Props.RlcCountdown
import Verif.Props.EndToEndLossy

/-!
# C148: a mobile station sending in one uplink TBF after the other, with its own countdown
-/
namespace Verif.Props

open Verif.Spec Verif.Rlc

/-- What holds of the TBF while it is not over (one timeslot). -/
structure SndOk (s : Session) : Prop where
  cd : CdInv s.snd.cd s.snd.p
  max : s.snd.p.bsCvMax ≤ 15
  act : s.snd.tx.finished = true → s.snd.active = true
  blk : ∀ k b, s.snd.tx.blks k = some b → b.cv = 0 → s.snd.active = true
  cmds : ∀ x ∈ s.down, x.2 < 4

/-- The request that `UlTx.dataCreate` would have to be given. -/
def _root_.Verif.Spec.Session.req (s : Session) (pre : Bool) : UlTxReq where
  len := s.snd.p.len
  cv := match s.snd.cd.checkEnter s.snd.p with
    | .ok c => c.cv
    | _ => 0
  tlli := s.snd.p.tlli
  preemptive := pre

theorem newBlock_eq {c : Cd} {p : TxParams} {c1 : Cd} (h : c.checkEnter p = .ok c1) :
    c.newBlock p = (do
      let r ← createBlock p.len c1.cv p.tlli c1.q
      .ok (r.1, { c1 with cv := if c1.cv < 15 then (c1.cv + 255) % 256 else c1.cv, q := r.2 })) := by
  unfold Cd.newBlock
  rw [h]
  rfl

theorem checkEnter_q {c c1 : Cd} {p : TxParams} (h : c.checkEnter p = .ok c1) : c1.q = c.q := by
  unfold Cd.checkEnter at h
  split at h
  · split at h
    · cases hc : p.calculateCv c.q with
      | ok v => rw [hc] at h; injection h with h; rw [← h]
      | err x => rw [hc] at h; cases h
      | ub x => rw [hc] at h; cases h
    · injection h with h; rw [← h]
  · cases hc : p.calculateCv c.q with
    | ok v => rw [hc] at h; injection h with h; rw [← h]
    | err x => rw [hc] at h; cases h
    | ub x => rw [hc] at h; cases h

/-- Being asked for a block is what it is in a transfer with the right countdown value. -/
theorem sim_send {s : Session} (i : SndOk s) (pre : Bool) (ha : s.Allowed (.send pre)) :
    s.cur.Allowed (.send (s.req pre)) ∧ RightCv s.cur (.send (s.req pre)) ∧
    ∀ c, s.cur.step (.send (s.req pre)) = .ok c →
      ∃ s', s.step (.send pre) = .ok s' ∧ s'.cur = c ∧ SndOk s' ∧ (s.snd.active = true → s'.snd.active = true) ∧
        s'.later = s.later ∧ s'.past = s.past ∧
        s'.arrived = s.arrived := by
  obtain ⟨s1, s2, s3, s4⟩ := sizeOk_lt i.cd.size
  refine ⟨⟨ha.1, ha.2, ?_, s2⟩, ?_, ?_⟩
  · show (if s.snd.p.tlli.isSome then 4 else 0) + 1 < s.snd.p.len
    have := i.cd.size.1
    omega
  · intro b q' hb
    by_cases hq : s.snd.tx.q = []
    · have hb' : createBlock s.snd.p.len (s.req pre).cv s.snd.p.tlli s.snd.tx.q = .ok (b, q') := hb
      rw [hq] at hb'
      simp [createBlock] at hb'
    · obtain ⟨cv, hce, hlt, hge⟩ := checkEnter_ok i.max i.cd (s := s.snd.cd) hq
      obtain ⟨b', s', hnb, _, _, _, h0⟩ := newBlock_ok i.max i.cd (s := s.snd.cd) hq
      have hcv : (s.req pre).cv = cv := by simp only [Session.req, hce]
      rw [newBlock_eq hce] at hnb
      have hb' : createBlock s.snd.p.len cv s.snd.p.tlli s.snd.tx.q = .ok (b, q') := by rw [← hcv]; exact hb
      have hb'' : createBlock s.snd.p.len cv s.snd.p.tlli s.snd.cd.q = .ok (b, q') := hb'
      simp only [hb'', Res.bind_ok] at hnb
      injection hnb with hnb
      injection hnb with hnb1 hnb2
      have hbcv : b.cv = cv := by
        obtain ⟨b3, q3, hbl, hcv3, _⟩ := block_needed i.cd.size cv hq i.cd.frames
        rw [hb'] at hbl
        injection hbl with hbl
        injection hbl with hbl _
        rw [hbl]; exact hcv3
      rw [hcv, ← hbcv, hnb1, h0, ← hnb2]
  · intro c hc
    simp only [UlLink.step, UlTx.dataCreate] at hc
    simp only [Session.step, UlSnd.dataCreate]
    have e1 : s.cur.tx = s.snd.tx := rfl
    have e2 : (s.req pre).preemptive = pre := rfl
    rw [e1, e2] at hc
    cases ht : UlWin.takeNext ⟨s.snd.tx.finished, decide (s.snd.tx.q ≠ []), pre⟩ 2 s.snd.tx.w with
    | none => rw [ht] at hc; cases hc
    | some x =>
      obtain ⟨w', bsn, k⟩ := x
      rw [ht] at hc
      cases k with
      | new =>
        simp only at hc ⊢
        by_cases hq : s.snd.tx.q = []
        · rw [hq] at hc
          simp [createBlock] at hc
        · obtain ⟨cv, hce, hlt, hge⟩ := checkEnter_ok i.max i.cd (s := s.snd.cd) hq
          obtain ⟨b', c', hnb, hinv, hlt', _, h0⟩ := newBlock_ok i.max i.cd (s := s.snd.cd) hq
          have hcv : (s.req pre).cv = cv := by simp only [Session.req, hce]
          have hnb' := hnb
          rw [newBlock_eq hce] at hnb'
          have hlen : (s.req pre).len = s.snd.p.len := rfl
          have htl : (s.req pre).tlli = s.snd.p.tlli := rfl
          rw [hcv, hlen, htl] at hc
          cases hb : createBlock s.snd.p.len cv s.snd.p.tlli s.snd.tx.q with
          | err x => rw [hb] at hc; cases hc
          | ub x => rw [hb] at hc; cases hc
          | ok r =>
            obtain ⟨b, q'⟩ := r
            have hb'' : createBlock s.snd.p.len cv s.snd.p.tlli s.snd.cd.q = .ok (b, q') := hb
            simp only [hb'', Res.bind_ok] at hnb'
            injection hnb' with hnb'
            injection hnb' with hnb1 hnb2
            subst hnb1
            have hq' : c'.q = q' := by rw [← hnb2]
            rw [hb] at hc
            simp only [Res.bind_ok] at hc
            injection hc with hc
            rw [hnb]
            simp only [Res.bind_ok]
            refine ⟨_, rfl, ?_, ⟨hinv, i.max, ?_, ?_, i.cmds⟩, fun ha => ?_, rfl, rfl, rfl⟩
            · rw [← hc]
              simp only [Session.cur, hq']
            · intro hf
              simp only [Bool.or_eq_true, decide_eq_true_eq] at hf
              rcases hf with hf | hf
              · have := i.act hf
                show c'.active = true
                rw [← hnb2]
                simp [UlSnd.cd, this]
              · exact (hlt' (by omega)).2.2.1
            · intro k x hx hx0
              simp only [upd] at hx
              show c'.active = true
              split at hx
              · injection hx with hx
                subst hx
                exact (hlt' (by omega)).2.2.1
              · have := i.blk k x hx hx0
                rw [← hnb2]
                simp [UlSnd.cd, this]
            · show c'.active = true
              rw [← hnb2]
              simp [UlSnd.cd, ha]
      | retransmit =>
        simp only at hc ⊢
        cases hb : s.snd.tx.blks (idx bsn) with
        | none => rw [hb] at hc; cases hc
        | some b =>
          rw [hb] at hc
          simp only [Res.bind_ok] at hc ⊢
          injection hc with hc
          refine ⟨_, rfl, by rw [← hc]; rfl, ⟨i.cd, i.max, fun hf => ?_, i.blk, i.cmds⟩, id, rfl, rfl, rfl⟩
          simp only [Bool.or_eq_true, decide_eq_true_eq] at hf
          rcases hf with hf | hf
          · exact i.act hf
          · exact i.blk _ b hb hf
      | filler =>
        simp only at hc ⊢
        cases hb : s.snd.tx.blks (idx bsn) with
        | none => rw [hb] at hc; cases hc
        | some b =>
          rw [hb] at hc
          simp only [Res.bind_ok] at hc ⊢
          injection hc with hc
          refine ⟨_, rfl, by rw [← hc]; rfl, ⟨i.cd, i.max, fun hf => ?_, i.blk, i.cmds⟩, id, rfl, rfl, rfl⟩
          simp only [Bool.or_eq_true, decide_eq_true_eq] at hf
          rcases hf with hf | hf
          · exact i.act hf
          · exact i.blk _ b hb hf

/-- Other parameters. -/
theorem change_ok {s : UlSnd} {p : TxParams} (h : CdInv s.cd s.p) (hp : SizeOk p.len p.tlli) (hk : p.ntsK = 1)
    (hb : p.bsCvMax ≤ 15) :
    ∃ s', s.change p = .ok s' ∧ s'.tx = s.tx ∧ s'.active = s.active ∧ s'.p = p ∧ CdInv s'.cd s'.p := by
  unfold UlSnd.change Cd.updateCv
  cases ha : s.active with
  | false =>
    have : s.cd.active = false := ha
    rw [this]
    refine ⟨_, rfl, rfl, ?_, rfl, ⟨hp, hk, h.frames, fun hx => ?_⟩⟩
    · show s.cd.active = false
      exact ha
    · have hx' : s.cd.active = true := hx
      rw [this] at hx'
      cases hx'
  | true =>
    have : s.cd.active = true := ha
    rw [this, if_pos rfl, calculateCv_one hp hk s.cd.q h.frames]
    refine ⟨_, rfl, rfl, rfl, rfl, ⟨hp, hk, h.frames, fun _ hq => ?_⟩⟩
    obtain ⟨s1, s2, s3, s4⟩ := sizeOk_lt hp
    have hpos := needed_pos (L := p.len - hdrLen p.tlli) (q := s.cd.q) (o := 0) (by omega) (Or.inr hq)
    show (if needed (p.len - hdrLen p.tlli) 0 false s.cd.q - 1 ≤ p.bsCvMax then
        needed (p.len - hdrLen p.tlli) 0 false s.cd.q - 1 else 15) = 15 ∨
      ((if needed (p.len - hdrLen p.tlli) 0 false s.cd.q - 1 ≤ p.bsCvMax then
        needed (p.len - hdrLen p.tlli) 0 false s.cd.q - 1 else 15) < 15 ∧
       (if needed (p.len - hdrLen p.tlli) 0 false s.cd.q - 1 ≤ p.bsCvMax then
        needed (p.len - hdrLen p.tlli) 0 false s.cd.q - 1 else 15) ≤ p.bsCvMax ∧
       needed (p.len - hdrLen p.tlli) 0 false s.cd.q = (if needed (p.len - hdrLen p.tlli) 0 false s.cd.q - 1 ≤ p.bsCvMax then
        needed (p.len - hdrLen p.tlli) 0 false s.cd.q - 1 else 15) + 1)
    split <;> omega

theorem csBytes (c : Nat) (h : c < 4) : ∀ t : Option Nat, SizeOk (info (c + cs1)).dataBytes t := by
  intro t
  have : c = 0 ∨ c = 1 ∨ c = 2 ∨ c = 3 := by omega
  unfold SizeOk
  rcases this with rfl | rfl | rfl | rfl <;> simp only [info, mcsInfo, List.getD] <;> split <;> decide

/-- A report. -/
theorem ackNack_ok {s : UlSnd} {d : UlAckDesc} {ccc : Nat} (h : CdInv s.cd s.p) (hm : s.p.bsCvMax ≤ 15)
    (hc : ccc < 4) :
    ∃ s', s.ackNack d ccc = .ok (s', (s.tx.ackNack d).2) ∧ s'.tx = (s.tx.ackNack d).1 ∧ s'.active = s.active ∧
      s'.p.bsCvMax = s.p.bsCvMax ∧ CdInv s'.cd s'.p := by
  have h1 : CdInv ({ s with tx := (s.tx.ackNack d).1 } : UlSnd).cd s.p := ⟨h.size, h.one, h.frames, h.cv⟩
  have h2 : ∃ s2, UlSnd.resolve { s with tx := (s.tx.ackNack d).1 } = .ok s2 ∧ s2.tx = (s.tx.ackNack d).1 ∧
      s2.active = s.active ∧ s2.p.bsCvMax = s.p.bsCvMax ∧ CdInv s2.cd s2.p := by
    unfold UlSnd.resolve
    by_cases ht : s.p.tlli.isSome
    · rw [if_pos ht]
      have hs : SizeOk s.p.len none := by
        have := h.size
        unfold SizeOk at this ⊢
        simp only [Option.isSome_none, Bool.false_eq_true, if_false]
        omega
      obtain ⟨s2, a1, a2, a3, a4, a5⟩ := change_ok (s := { s with tx := (s.tx.ackNack d).1 })
        (p := { s.p with tlli := none }) h1 hs h.one hm
      exact ⟨s2, a1, a2, a3, by rw [a4], a5⟩
    · rw [if_neg ht]
      exact ⟨_, rfl, rfl, rfl, rfl, h1⟩
  obtain ⟨s2, a1, a2, a3, a4, a5⟩ := h2
  have h3 : ∃ s3, s2.updateTxCs ccc = .ok s3 ∧ s3.tx = s2.tx ∧ s3.active = s2.active ∧ s3.p.bsCvMax = s2.p.bsCvMax ∧
      CdInv s3.cd s3.p := by
    unfold UlSnd.updateTxCs
    by_cases hl : s2.p.len = (info (ccc + cs1)).dataBytes
    · rw [if_pos hl]
      exact ⟨s2, rfl, rfl, rfl, rfl, a5⟩
    · rw [if_neg hl]
      obtain ⟨s3, b1, b2, b3, b4, b5⟩ := change_ok (p := { s2.p with len := (info (ccc + cs1)).dataBytes }) a5
        (csBytes ccc hc _) a5.one (by show s2.p.bsCvMax ≤ 15; omega)
      exact ⟨s3, b1, b2, b3, by rw [b4], b5⟩
  obtain ⟨s3, b1, b2, b3, b4, b5⟩ := h3
  refine ⟨s3, ?_, by rw [b2, a2], by rw [b3, a3], by rw [b4, a4], b5⟩
  unfold UlSnd.ackNack
  rw [a1]
  simp only [Res.bind_ok]
  rw [b1]
  rfl

/-- The event of a transfer an event of the session stands for; `none`: nothing happens to the transfer. -/
def Session.asEv (s : Session) : SessionEv → Option UlLinkEv
  | .send pre => some (.send (s.req pre))
  | .frame f => if s.snd.active then none else some (.frame f)
  | .upArrives => some .upArrives
  | .upLost => some .upLost
  | .report d _ => some (.report d)
  | .downArrives => some .downArrives
  | .downLost => some .downLost
  | .next _ => none

/-- What has to be known of an event. -/
def Session.Weak (s : Session) : SessionEv → Prop
  | .send pre => s.Allowed (.send pre)
  | .frame f => f ≠ []
  | .report d ccc => s.net.Truthful d ∧ ccc < 4
  | _ => True

theorem Session.weak {s : Session} {e : SessionEv} (h : s.Allowed e) : Session.Weak s e := by
  cases e with
  | send pre => exact h
  | frame f => exact h
  | report d c => exact h.2
  | _ => trivial

/-- Within a TBF, an event of the session is one of the transfer, or a frame for later. -/
theorem sim {s : Session} (i : SndOk s) {e : SessionEv} (hn : ∀ p, e ≠ .next p) (ha : Session.Weak s e) :
    (∃ f, e = .frame f ∧ s.snd.active = true) ∨
    ∃ e', Session.asEv s e = some e' ∧ (s.done = false → s.cur.Allowed e') ∧ RightCv s.cur e' ∧
      (∀ c, s.cur.step e' = .ok c → ∃ s', s.step e = .ok s' ∧ s'.cur = c ∧ SndOk s' ∧
        (s.snd.active = true → s'.snd.active = true) ∧ s'.later = s.later ∧ s'.past = s.past ∧ s'.arrived = s.arrived ++ (match e with | .frame f => [f] | _ => [])) := by
  cases e with
  | next p => exact absurd rfl (hn p)
  | send pre =>
    obtain ⟨a1, a2, a3⟩ := sim_send i pre ha
    refine Or.inr ⟨_, rfl, fun _ => a1, a2, ?_⟩
    simpa using a3
  | frame f =>
    by_cases h : s.snd.active = true
    · exact Or.inl ⟨f, rfl, h⟩
    · refine Or.inr ⟨.frame f, by simp [Session.asEv, h], fun hd => ⟨hd, ha, ?_⟩, trivial, ?_⟩
      · cases hf : s.snd.tx.finished with
        | false => exact hf
        | true => exact absurd (i.act hf) h
      · intro c hc
        simp only [UlLink.step] at hc
        injection hc with hc
        simp only [Session.step]
        rw [if_neg h]
        refine ⟨_, rfl, by rw [← hc]; rfl, ⟨⟨i.cd.size, i.cd.one, ?_, fun hx => absurd hx h⟩, i.max, i.act, i.blk, i.cmds⟩,
          id, rfl, rfl, rfl⟩
        intro m hm
        have hm' : m ∈ s.snd.tx.q ++ [f] := hm
        rcases List.mem_append.1 hm' with hm' | hm'
        · exact i.cd.frames m hm'
        · rw [List.mem_singleton.1 hm']; exact ha
  | upArrives =>
    refine Or.inr ⟨_, rfl, fun hd => ⟨hd, trivial⟩, trivial, fun c hc => ?_⟩
    simp only [UlLink.step] at hc
    simp only [Session.step]
    have e1 : s.cur.up = s.up := rfl
    rw [e1] at hc
    cases hu : s.up with
    | nil =>
      rw [hu] at hc
      injection hc with hc
      exact ⟨s, rfl, hc, i, id, rfl, rfl, by simp⟩
    | cons x up =>
      rw [hu] at hc
      injection hc with hc
      exact ⟨_, rfl, by rw [← hc]; rfl, ⟨i.cd, i.max, i.act, i.blk, i.cmds⟩, id, rfl, rfl, by simp⟩
  | upLost =>
    refine Or.inr ⟨_, rfl, fun hd => ⟨hd, trivial⟩, trivial, fun c hc => ?_⟩
    simp only [UlLink.step] at hc
    injection hc with hc
    exact ⟨_, rfl, by rw [← hc]; rfl, ⟨i.cd, i.max, i.act, i.blk, i.cmds⟩, id, rfl, rfl, by simp⟩
  | report d ccc =>
    refine Or.inr ⟨_, rfl, fun hd => ⟨hd, ha.1⟩, trivial, fun c hc => ?_⟩
    simp only [UlLink.step] at hc
    injection hc with hc
    refine ⟨_, rfl, by rw [← hc]; simp [Session.cur], ⟨i.cd, i.max, i.act, i.blk, ?_⟩, id, rfl, rfl, by simp⟩
    intro x hx
    rcases List.mem_append.1 hx with hx | hx
    · exact i.cmds x hx
    · rw [List.mem_singleton.1 hx]; exact ha.2
  | downArrives =>
    refine Or.inr ⟨_, rfl, fun hd => ⟨hd, trivial⟩, trivial, fun c hc => ?_⟩
    simp only [UlLink.step] at hc
    simp only [Session.step]
    have e1 : s.cur.down = s.down.map Prod.fst := rfl
    rw [e1] at hc
    cases hu : s.down with
    | nil =>
      rw [hu] at hc
      injection hc with hc
      exact ⟨s, rfl, hc, i, id, rfl, rfl, by simp⟩
    | cons x down =>
      obtain ⟨d, ccc⟩ := x
      rw [hu] at hc
      simp only [List.map_cons] at hc
      injection hc with hc
      obtain ⟨s', a1, a2, a3, a4, a5⟩ := ackNack_ok (d := d) i.cd i.max (i.cmds (d, ccc) (by rw [hu]; exact List.mem_cons_self))
      simp only [a1, Res.bind_ok]
      refine ⟨_, rfl, ?_, ⟨a5, by show s'.p.bsCvMax ≤ 15; rw [a4]; exact i.max, ?_, ?_, ?_⟩, fun ha => by show s'.active = true; rw [a3]; exact ha, rfl, rfl, by simp⟩
      · rw [← hc]
        simp only [Session.cur, a2]
      · intro hf
        show s'.active = true
        rw [a3]
        apply i.act
        have hf' : s'.tx.finished = true := hf
        rw [a2] at hf'
        exact hf'
      · intro k b hb hb0
        show s'.active = true
        rw [a3]
        have hb' : s'.tx.blks k = some b := hb
        rw [a2] at hb'
        exact i.blk k b hb' hb0
      · intro y hy
        exact i.cmds y (by rw [hu]; exact List.mem_cons_of_mem _ hy)
  | downLost =>
    refine Or.inr ⟨_, rfl, fun hd => ⟨hd, trivial⟩, trivial, fun c hc => ?_⟩
    simp only [UlLink.step] at hc
    injection hc with hc
    refine ⟨_, rfl, by rw [← hc]; simp [Session.cur], ⟨i.cd, i.max, i.act, i.blk, ?_⟩, id, rfl, rfl, by simp⟩
    intro x hx
    exact i.cmds x (List.mem_of_mem_drop hx)

theorem sim_up : ∀ (k : Nat) {s : Session} {c : UlLink}, SndOk s →
    UlLink.run (List.replicate k .upArrives) s.cur = .ok c →
    ∃ s', Session.run (List.replicate k .upArrives) s = .ok s' ∧ s'.cur = c ∧ SndOk s' := by
  intro k
  induction k with
  | zero => intro s c i h; injection h with h; exact ⟨s, rfl, h, i⟩
  | succ k ih =>
    intro s c i h
    simp only [List.replicate_succ, UlLink.run] at h
    rcases sim i (e := .upArrives) (fun p h => by cases h) trivial with ⟨f, hf, _⟩ | ⟨e', he, _, _, hs⟩
    · cases hf
    · injection he with he
      subst he
      cases h1 : s.cur.step .upArrives with
      | err x => rw [h1] at h; cases h
      | ub x => rw [h1] at h; cases h
      | ok c1 =>
        rw [h1] at h
        simp only [Res.bind_ok] at h
        obtain ⟨s1, a1, a2, a3, _⟩ := hs c1 h1
        rw [← a2] at h
        obtain ⟨s', b1, b2, b3⟩ := ih a3 h
        refine ⟨s', ?_, b2, b3⟩
        simp only [List.replicate_succ, Session.run]
        rw [a1]
        exact b1

theorem sim_down : ∀ (k : Nat) {s : Session} {c : UlLink}, SndOk s →
    UlLink.run (List.replicate k .downArrives) s.cur = .ok c →
    ∃ s', Session.run (List.replicate k .downArrives) s = .ok s' ∧ s'.cur = c ∧ SndOk s' := by
  intro k
  induction k with
  | zero => intro s c i h; injection h with h; exact ⟨s, rfl, h, i⟩
  | succ k ih =>
    intro s c i h
    simp only [List.replicate_succ, UlLink.run] at h
    rcases sim i (e := .downArrives) (fun p h => by cases h) trivial with ⟨f, hf, _⟩ | ⟨e', he, _, _, hs⟩
    · cases hf
    · injection he with he
      subst he
      cases h1 : s.cur.step .downArrives with
      | err x => rw [h1] at h; cases h
      | ub x => rw [h1] at h; cases h
      | ok c1 =>
        rw [h1] at h
        simp only [Res.bind_ok] at h
        obtain ⟨s1, a1, a2, a3, _⟩ := hs c1 h1
        rw [← a2] at h
        obtain ⟨s', b1, b2, b3⟩ := ih a3 h
        refine ⟨s', ?_, b2, b3⟩
        simp only [List.replicate_succ, Session.run]
        rw [a1]
        exact b1

/-- The first half of a round. -/
theorem sim_sendRound {s : Session} (i : SndOk s) (pre : Bool) (ha : s.Allowed (.send pre)) {c : UlLink}
    (h : UlLink.run (s.cur.sendRound (s.req pre)) s.cur = .ok c) :
    ∃ s', Session.run (s.sendRound pre) s = .ok s' ∧ s'.cur = c ∧ SndOk s' := by
  obtain ⟨_, _, hs⟩ := sim_send i pre ha
  simp only [UlLink.sendRound, UlLink.run] at h
  cases h1 : s.cur.step (.send (s.req pre)) with
  | err x => rw [h1] at h; cases h
  | ub x => rw [h1] at h; cases h
  | ok c1 =>
    rw [h1] at h
    simp only [Res.bind_ok] at h
    obtain ⟨s1, a1, a2, a3, _⟩ := hs c1 h1
    rw [← a2] at h
    obtain ⟨s', b1, b2, b3⟩ := sim_up _ a3 h
    refine ⟨s', ?_, b2, b3⟩
    simp only [Session.sendRound, Session.run]
    rw [a1]
    exact b1

/-- The second half. -/
theorem sim_reportRound {s : Session} (i : SndOk s) {d : UlAckDesc} {ccc : Nat} (ht : s.net.Truthful d) (hc : ccc < 4)
    {c : UlLink} (h : UlLink.run (s.cur.reportRound d) s.cur = .ok c) :
    ∃ s', Session.run (s.reportRound d ccc) s = .ok s' ∧ s'.cur = c ∧ SndOk s' := by
  rcases sim i (e := .report d ccc) (fun p h => by cases h) ⟨ht, hc⟩ with ⟨f, hf, _⟩ | ⟨e', he, _, _, hs⟩
  · cases hf
  · injection he with he
    subst he
    obtain ⟨s1, a1, a2, a3, _⟩ := hs _ rfl
    simp only [UlLink.reportRound, UlLink.run] at h
    have h' : UlLink.run (List.replicate (s.cur.down.length + 1) .downArrives) s1.cur = .ok c := by
      rw [a2]; exact h
    obtain ⟨s', b1, b2, b3⟩ := sim_down _ a3 h'
    refine ⟨s', ?_, b2, b3⟩
    simp only [Session.reportRound, Session.run]
    rw [a1]
    have hl : s.cur.down.length = s.down.length := by simp [Session.cur]
    rw [hl] at b1
    exact b1

/-- A transfer that comes to its end does so in the session. -/
theorem sim_completes {c : UlLink} (h : c.Completes) : ∀ {s : Session}, s.cur = c → SndOk s → s.Completes := by
  induction h with
  | over hd => intro s e _; exact .over (by rw [← e] at hd; exact hd)
  | @round c hg _ ih =>
    intro s e i
    subst e
    refine .round (fun pre ha => ?_) ?_
    · obtain ⟨a1, a2, _⟩ := sim_send i pre ha
      obtain ⟨c1, b1, b2⟩ := hg _ a1 a2
      obtain ⟨s1, x1, x2, x3⟩ := sim_sendRound i pre ha b1
      refine ⟨s1, x1, fun d ccc hf hc => ?_⟩
      have hn : s1.net = c1.net := by rw [← x2]; rfl
      obtain ⟨c2, y1⟩ := b2 d (by rw [← hn]; exact hf)
      rw [← x2] at y1
      obtain ⟨s2, z1, _⟩ := sim_reportRound x3 hf.1 hc y1
      exact ⟨s2, z1⟩
    · rintro s' ⟨pre, s1, d, ccc, ha, g1, g2, g3, g4⟩
      obtain ⟨a1, a2, _⟩ := sim_send i pre ha
      obtain ⟨c1, b1, b2⟩ := hg _ a1 a2
      obtain ⟨s1', x1, x2, x3⟩ := sim_sendRound i pre ha b1
      rw [g1] at x1
      injection x1 with x1
      subst x1
      have hn : s1.net = c1.net := by rw [← x2]; rfl
      have hf' : c1.net.FullReport d := by rw [← hn]; exact g2
      obtain ⟨c2, y1⟩ := b2 d hf'
      have y1' := y1
      rw [← x2] at y1'
      obtain ⟨s2, z1, z2, z3⟩ := sim_reportRound x3 g2.1 g3 y1'
      rw [g4] at z1
      injection z1 with z1
      subst z1
      exact ih c2 ⟨_, c1, d, a1, a2, b1, hf', y1⟩ z2 z3

/-- What holds in a session of TBFs with one timeslot each. -/
structure SessFacts (Q : UlLink → UlLinkEv → Prop) (s : Session) : Prop where
  cur : s.cur.Reached Q
  snd : SndOk s
  past : ∀ l ∈ s.past, l.Reached Q ∧ l.done = true
  frames : s.past.flatMap UlLink.offered ++ s.offered ++ s.later = s.arrived
  later : ∀ f ∈ s.later, f ≠ []
  wait : s.snd.active = false → s.later = []

theorem sndOk_init {p : TxParams} {q : List Octets} (hp : ParamsOk p) (hk : p.ntsK = 1) (hq : ∀ f ∈ q, f ≠ []) :
    SndOk (Session.init p q) :=
  ⟨⟨hp.1, hk, hq, fun h => (by cases h)⟩, hp.2.1, fun h => (by cases h), fun k b h => (by cases h), fun x h => (by cases h)⟩

theorem sessFacts {P : Session → SessionEv → Prop} {Q : UlLink → UlLinkEv → Prop}
    (hPQ : ∀ s e e', P s e → Session.asEv s e = some e' → RightCv s.cur e' → Q s.cur e') {s : Session}
    (hr : s.Reached (fun p => p.ntsK = 1) P) : SessFacts Q s := by
  induction hr with
  | init p q hp hk hq =>
    exact ⟨.init q hq, sndOk_init hp hk hq, fun l h => (by cases h), by simp [Session.init], fun f h => (by cases h),
      fun _ => rfl⟩
  | @step s s' e hr' ha hp hk he ih =>
    by_cases hn : ∀ p, e ≠ .next p
    · have hframe : s.snd.active = true → ∀ f, e = .frame f → SessFacts Q s' := by
        intro hact f hf
        subst hf
        simp only [Session.step] at he
        rw [if_pos hact] at he
        injection he with he
        subst he
        refine ⟨ih.cur, ⟨ih.snd.cd, ih.snd.max, ih.snd.act, ih.snd.blk, ih.snd.cmds⟩, ih.past, ?_, ?_, fun hx => ?_⟩
        · rw [← ih.frames]; simp
        · intro g hg
          rcases List.mem_append.1 hg with hg | hg
          · exact ih.later g hg
          · rw [List.mem_singleton.1 hg]; exact ha
        · have hx' : s.snd.active = false := hx
          rw [hact] at hx'; cases hx'
      rcases sim ih.snd hn (Session.weak ha) with ⟨f, hf, hact⟩ | ⟨e', x1, x2, x3, x4⟩
      · exact hframe hact f hf
      · by_cases hd : s.done = true
        · -- only frames are possible
          have hact := ih.snd.act (finished_of_done ih.cur hd)
          cases e with
          | frame f => exact hframe hact f rfl
          | next p => exact absurd rfl (hn p)
          | send pre => have := ha.1; rw [hd] at this; cases this
          | report d c => have := ha.1; rw [hd] at this; cases this
          | upArrives => have : s.done = false := ha; rw [hd] at this; cases this
          | upLost => have : s.done = false := ha; rw [hd] at this; cases this
          | downArrives => have : s.done = false := ha; rw [hd] at this; cases this
          | downLost => have : s.done = false := ha; rw [hd] at this; cases this
        · have hd : s.done = false := by simpa using hd
          have hal := x2 hd
          obtain ⟨c, hc⟩ := linkFacts_step (linkFacts ih.cur) hal
          obtain ⟨s'', y1, y2, y3, y0, y4, y5, y6⟩ := x4 c hc.1
          rw [he] at y1
          injection y1 with y1
          subst y1
          have hcur : s'.cur.Reached Q := by
            rw [y2]; exact .step ih.cur hal (hPQ s e e' hp x1 x3) hc.1
          by_cases hf : ∃ f, e = .frame f
          · obtain ⟨f, rfl⟩ := hf
            by_cases hact : s.snd.active = true
            · exact hframe hact f rfl
            · have hact : s.snd.active = false := by simpa using hact
              have hl := ih.wait hact
              simp only [Session.step] at he
              rw [if_neg (by simp [hact])] at he
              injection he with he
              have ho : s'.offered = s.offered ++ [f] := by rw [← he]
              refine ⟨hcur, y3, by rw [y5]; exact ih.past, ?_, by rw [y4, hl]; exact fun g hg => (by cases hg), fun _ => by rw [y4, hl]⟩
              rw [y6, y5, y4, ho, ← ih.frames, hl]
              simp
          · have hnf : ∀ f, e ≠ .frame f := fun f h => hf ⟨f, h⟩
            have ho : s'.offered = s.offered := by
              have : s'.cur.offered = c.offered := by rw [y2]
              show s'.cur.offered = s.cur.offered
              rw [this]
              have hcs := hc.1
              cases e with
              | frame f => exact absurd rfl (hnf f)
              | next p => exact absurd rfl (hn p)
              | send pre =>
                injection x1 with x1; subst x1
                obtain ⟨h, ns, sn, i⟩ := (linkFacts ih.cur).live hd
                obtain ⟨h0, h1, h2⟩ := hal.2
                obtain ⟨sa, w', bsn, k, n, _, _, a2, _, _, _, _, _, a8, _⟩ := i.send (s.req pre) h0 (by unfold hdrLen; omega) h2
                rw [hcs] at a2
                injection a2 with a2
                rw [a2, a8]
              | report d c => injection x1 with x1; subst x1; injection hcs with hcs; rw [← hcs]
              | upLost => injection x1 with x1; subst x1; injection hcs with hcs; rw [← hcs]
              | downLost => injection x1 with x1; subst x1; injection hcs with hcs; rw [← hcs]
              | upArrives =>
                injection x1 with x1; subst x1
                simp only [UlLink.step] at hcs
                split at hcs <;> (injection hcs with hcs; rw [← hcs])
              | downArrives =>
                injection x1 with x1; subst x1
                simp only [UlLink.step] at hcs
                split at hcs <;> (injection hcs with hcs; rw [← hcs])
            have hact : s'.snd.active = false → s.snd.active = false := by
              intro hx
              cases ha' : s.snd.active with
              | false => rfl
              | true => rw [y0 ha'] at hx; cases hx
            refine ⟨hcur, y3, by rw [y5]; exact ih.past, ?_, by rw [y4]; exact ih.later, fun hx => by rw [y4]; exact ih.wait (hact hx)⟩
            rw [y6, y5, y4, ho, ← ih.frames]
            cases e with
            | frame f => exact absurd rfl (hnf f)
            | _ => simp
    · have : ∃ p, e = .next p := by
        cases e with
        | next p => exact ⟨p, rfl⟩
        | _ => exact absurd (fun p h => by cases h) hn
      obtain ⟨p, rfl⟩ := this
      obtain ⟨a1, a2, a3⟩ := ha
      simp only [Session.step] at he
      injection he with he
      subst he
      have hkp := hk p rfl
      have h0 := sndOk_init (q := s.later) a3 hkp ih.later
      refine ⟨.init s.later ih.later, ⟨h0.cd, h0.max, h0.act, h0.blk, h0.cmds⟩, ?_, ?_, fun f h => (by cases h), fun _ => rfl⟩
      · intro l hl
        rcases List.mem_append.1 hl with hl | hl
        · exact ih.past l hl
        · rw [List.mem_singleton.1 hl]; exact ⟨ih.cur, a1⟩
      · show (s.past ++ [s.cur]).flatMap UlLink.offered ++ s.later ++ [] = s.arrived
        rw [← ih.frames]
        simp [Session.cur]

/-- The data left does not consist of two or more frames filling the next block exactly without a length indicator for
the last one (C19). -/
def NoExactSend (s : Session) : SessionEv → Prop
  | .send _ => NoExactFit s.snd.p.len s.snd.p.tlli s.snd.tx.q
  | _ => True

/-- **C148**, the full statement: in every history of a mobile station that is given frames at any time and sends them
in one uplink TBF after the other, over a radio link that loses and delays blocks and reports, with the network
commanding coding schemes: nothing fails; the current TBF comes to its end once nothing is lost any more; and what the
network puts together are the first of the frames, unchanged and in order, all those taken once the TBF is over. -/
def C148Statement : Prop :=
  ∀ s : Session, s.Reached (fun _ => True) (fun _ _ => True) →
    (∀ e, s.Allowed e → ∃ s', s.step e = .ok s') ∧ s.Completes ∧
    ∃ up, s.recovered = some up ∧ up <+: s.arrived ∧ (s.done = true → up ++ s.later = s.arrived)

theorem sessFacts_one {P : Session → SessionEv → Prop} {s : Session} (hr : s.Reached (fun p => p.ntsK = 1) P) :
    SessFacts RightCv s := sessFacts (fun _ _ _ _ _ h => h) hr

/-- **C148**, part: with one timeslot nothing fails and every TBF comes to its end; the blocks the network has are
those composed, all of them once the TBF is over, and by then all the data the TBF took has been sent. -/
theorem c148_reliable_partial (s : Session) (hr : s.Reached (fun p => p.ntsK = 1) (fun _ _ => True)) :
    (∀ e, s.Allowed e → ∃ s', s.step e = .ok s') ∧ s.Completes ∧
    (∀ n b, s.net.got n = some b → s.composed[n]? = some b) ∧
    (s.done = true → ∀ n, s.net.got n = s.composed[n]?) := by
  have f := sessFacts_one hr
  obtain ⟨r1, r2, r3⟩ := c145_reliable s.cur (Reached.weaken (fun _ _ _ => trivial) f.cur)
  refine ⟨fun e ha => ?_, sim_completes (c146_completes s.cur f.cur) rfl f.snd, r1, fun hd => r2 (Or.inl hd)⟩
  by_cases hn : ∀ p, e ≠ .next p
  · rcases sim f.snd hn (Session.weak ha) with ⟨g, hg, hact⟩ | ⟨e', x1, x2, x3, x4⟩
    · subst hg
      exact ⟨_, by simp only [Session.step]; rw [if_pos hact]⟩
    · cases hd : s.done with
      | true =>
        have hact := f.snd.act (finished_of_done f.cur hd)
        cases e with
        | frame g => exact ⟨_, by simp only [Session.step]; rw [if_pos hact]⟩
        | next p => exact absurd rfl (hn p)
        | send pre => have := ha.1; rw [hd] at this; cases this
        | report d c => exact ⟨_, rfl⟩
        | upArrives => have : s.done = false := ha; rw [hd] at this; cases this
        | upLost => exact ⟨_, rfl⟩
        | downArrives => have : s.done = false := ha; rw [hd] at this; cases this
        | downLost => exact ⟨_, rfl⟩
      | false =>
        obtain ⟨c, hc⟩ := r3 e' (x2 hd)
        obtain ⟨s', y, _⟩ := x4 c hc
        exact ⟨s', y⟩
  · cases e with
    | next p => exact ⟨_, rfl⟩
    | _ => exact absurd (fun p h => by cases h) hn

theorem sessFacts_noExact {s : Session} (hr : s.Reached (fun p => p.ntsK = 1) NoExactSend) :
    SessFacts RightAndNoExactFit s := by
  refine sessFacts (fun s e e' hp he hcv => ⟨hcv, ?_⟩) hr
  cases e with
  | send pre => injection he with he; subst he; exact fun _ => hp
  | frame f =>
    simp only [Session.asEv] at he
    split at he
    · cases he
    · injection he with he; subst he; trivial
  | next p => cases he
  | report d c => injection he with he; subst he; trivial
  | upArrives => injection he with he; subst he; trivial
  | upLost => injection he with he; subst he; trivial
  | downArrives => injection he with he; subst he; trivial
  | downLost => injection he with he; subst he; trivial

theorem session_recovered {s : Session} (hr : s.Reached (fun p => p.ntsK = 1) NoExactSend) :
    ∃ up, s.recovered = some up ∧ up <+: s.arrived ∧ (s.done = true → up ++ s.later = s.arrived) := by
  have f := sessFacts_noExact hr
  obtain ⟨up, u1, u2, u3⟩ := recovered_prefix f.cur
  have hd := recoveredFrom_done s.past f.past
  unfold recoveredFrom at hd
  rw [Option.map_eq_some_iff] at hd
  obtain ⟨x, x1, x2⟩ := hd
  have ho : s.cur.offered = s.offered := rfl
  refine ⟨s.past.flatMap UlLink.offered ++ up, ?_, ?_, fun h => ?_⟩
  · unfold Session.recovered
    rw [Option.map_eq_some_iff]
    exact ⟨x ++ [up], by rw [List.mapM_append, x1]; simp [u1], by simp [x2]⟩
  · rw [← f.frames, List.append_assoc]
    rw [List.prefix_append_right_inj]
    rw [ho] at u2
    exact u2.trans (List.prefix_append _ _)
  · rw [u3 h, ho, ← f.frames]

/-- **C148**, proved part: with one timeslot per TBF, and unless two or more frames fill the last block exactly (C19).
Missing: these blocks, and several timeslots, for which the statement is false. -/
theorem c148_partial (s : Session) (hr : s.Reached (fun p => p.ntsK = 1) NoExactSend) :
    (∀ e, s.Allowed e → ∃ s', s.step e = .ok s') ∧ s.Completes ∧
    ∃ up, s.recovered = some up ∧ up <+: s.arrived ∧ (s.done = true → up ++ s.later = s.arrived) := by
  have hr' : s.Reached (fun p => p.ntsK = 1) (fun _ _ => True) := by
    induction hr with
    | init p q a b c => exact .init p q a b c
    | step _ a _ c d ih => exact .step ih a trivial c d
  obtain ⟨a, b, _⟩ := c148_reliable_partial s hr'
  exact ⟨a, b, session_recovered hr⟩

/-- **C149**, the full statement: N-PDUs that are given to the mobile station at any time and sent in one uplink TBF
after the other over a lossy radio link are delivered in the network exactly once, unchanged and in order; all of
them when the last TBF is over. -/
def C149Statement : Prop :=
  ∀ (p : Path) (ns : List Octets), p.Ready → Npdus ns → ∃ frames, p.send ns = .ok frames ∧
    ∀ s : Session, s.Reached (fun _ => True) (fun _ _ => True) → s.arrived <+: frames →
      ∃ up got, s.recovered = some up ∧ p.receive up = .ok got ∧ got <+: ns ∧
        (s.arrived = frames → s.done = true → s.later = [] → got = ns)

/-- **C149**, proved part: one timeslot per TBF, no exact fit (C19).  Missing: these. -/
theorem c149_partial (p : Path) (ns : List Octets) (hp : p.Ready) (hns : Npdus ns) :
    ∃ frames, p.send ns = .ok frames ∧
      ∀ s : Session, s.Reached (fun p => p.ntsK = 1) NoExactSend → s.arrived <+: frames →
        ∃ up got, s.recovered = some up ∧ p.receive up = .ok got ∧ got <+: ns ∧
          (s.arrived = frames → s.done = true → s.later = [] → got = ns) := by
  obtain ⟨frames, h1, _, h3, h4⟩ := upper_path hp hns
  refine ⟨frames, h1, fun s hr hpre => ?_⟩
  obtain ⟨up, u1, u2, u3⟩ := session_recovered hr
  obtain ⟨t, ht⟩ := u2.trans hpre
  obtain ⟨got, g1, g2⟩ := h4 up.length
  rw [← ht, List.take_left'] at g1
  · refine ⟨up, got, u1, g1, g2, fun ha hd hl => ?_⟩
    have := u3 hd
    rw [hl, List.append_nil, ha] at this
    rw [this, h3] at g1
    injection g1 with g1
    exact g1.symm
  · rfl

/-! ### Concrete sessions -/

/-- Checks that an event is allowed. -/
def sAllowedB (s : Session) : SessionEv → Bool
  | .frame f => decide (f ≠ [])
  | .next p => s.done && decide (s.later ≠ []) && decide ((if p.tlli.isSome then 4 else 0) + 3 ≤ p.len ∧ p.len < 64) &&
      decide (p.bsCvMax ≤ 15 ∧ 1 ≤ p.ntsK)
  | .send _ => !s.done && decide (s.offered ≠ [])
  | .report d ccc => !s.done && decide (ccc < 4) && decide (d.ssn = s.net.vr % 128) &&
      ((List.range 65).all fun k => k = 0 || decide (s.net.vr < k) ||
        bitAt d.rbb (64 - k) == (s.net.got (s.net.vr - k)).isSome) &&
      (!d.finalAck || ((List.range s.net.vr).any fun n => ((List.range n).all fun k => (s.net.got k).isSome) &&
        match s.net.got n with
        | some b => decide (b.cv = 0)
        | none => false))
  | _ => !s.done

theorem sAllowedB_ok {s : Session} {e : SessionEv} (h : sAllowedB s e = true) : s.Allowed e := by
  cases e with
  | frame f =>
    have h : decide (f ≠ []) = true := h
    have h' : f ≠ [] := of_decide_eq_true h
    exact h'
  | next p =>
    simp only [sAllowedB, Bool.and_eq_true, decide_eq_true_eq] at h
    exact ⟨h.1.1.1, h.1.1.2, h.1.2, h.2.1, h.2.2⟩
  | send pre => simpa [sAllowedB, Session.Allowed] using h
  | report d ccc =>
    simp only [sAllowedB, Bool.and_eq_true, decide_eq_true_eq, List.all_eq_true, List.mem_range] at h
    obtain ⟨⟨⟨⟨h0, h1⟩, h2⟩, h3⟩, h4⟩ := h
    refine ⟨by simpa using h0, ⟨h2, fun k k1 k2 k3 => ?_, fun hf => ?_⟩, h1⟩
    · have := h3 k (by omega)
      simp only [Bool.or_eq_true, decide_eq_true_eq, beq_iff_eq] at this
      rcases this with (h | h) | h
      · omega
      · omega
      · exact h
    · rw [hf] at h4
      simp only [Bool.not_true, Bool.false_or, List.any_eq_true, List.mem_range, Bool.and_eq_true, List.all_eq_true] at h4
      obtain ⟨n, _, n2, n3⟩ := h4
      cases hg : s.net.got n with
      | none => rw [hg] at n3; cases n3
      | some b => rw [hg] at n3; exact ⟨n, b, hg, by simpa using n3, n2⟩
  | upArrives => simpa [sAllowedB, Session.Allowed] using h
  | upLost => simpa [sAllowedB, Session.Allowed] using h
  | downArrives => simpa [sAllowedB, Session.Allowed] using h
  | downLost => simpa [sAllowedB, Session.Allowed] using h

/-- Checks for one timeslot and no exact fit. -/
def oneB (s : Session) : SessionEv → Bool
  | .next p => decide (p.ntsK = 1)
  | .send _ => decide (2 ≤ s.snd.tx.q.length →
      hdrLen s.snd.p.tlli + s.snd.tx.q.flatten.length + (s.snd.tx.q.length - 1) ≠ s.snd.p.len)
  | _ => true

/-- Checks and runs events. -/
def sRunB (one : Bool) : List SessionEv → Session → Option Session
  | [], s => some s
  | e :: es, s =>
    if sAllowedB s e && (!one || oneB s e) then
      match s.step e with
      | .ok s' => sRunB one es s'
      | _ => none
    else none

theorem sRunB_one : ∀ {es : List SessionEv} {s s' : Session}, s.Reached (fun p => p.ntsK = 1) NoExactSend →
    sRunB true es s = some s' → s'.Reached (fun p => p.ntsK = 1) NoExactSend := by
  intro es
  induction es with
  | nil => intro s s' hr h; injection h with h; exact h ▸ hr
  | cons e es ih =>
    intro s s' hr h
    unfold sRunB at h
    by_cases hc : (sAllowedB s e && (!true || oneB s e)) = true
    · rw [if_pos hc] at h
      simp only [Bool.not_true, Bool.false_or, Bool.and_eq_true] at hc
      cases hs : s.step e with
      | ok s1 =>
        rw [hs] at h
        refine ih (.step hr (sAllowedB_ok hc.1) ?_ ?_ hs) h
        · cases e with
          | send pre =>
            have h2 := hc.2
            simp only [oneB, decide_eq_true_eq] at h2
            exact h2
          | _ => trivial
        · intro p hp
          subst hp
          exact of_decide_eq_true hc.2
      | err x => rw [hs] at h; cases h
      | ub x => rw [hs] at h; cases h
    · rw [if_neg hc] at h; cases h

theorem sRunB_any : ∀ {es : List SessionEv} {s s' : Session}, s.Reached (fun _ => True) (fun _ _ => True) →
    sRunB false es s = some s' → s'.Reached (fun _ => True) (fun _ _ => True) := by
  intro es
  induction es with
  | nil => intro s s' hr h; injection h with h; exact h ▸ hr
  | cons e es ih =>
    intro s s' hr h
    unfold sRunB at h
    by_cases hc : (sAllowedB s e && (!false || oneB s e)) = true
    · rw [if_pos hc] at h
      simp only [Bool.and_eq_true] at hc
      cases hs : s.step e with
      | ok s1 =>
        rw [hs] at h
        exact ih (.step hr (sAllowedB_ok hc.1) trivial (fun _ _ => trivial) hs) h
      | err x => rw [hs] at h; cases h
      | ub x => rw [hs] at h; cases h
    · rw [if_neg hc] at h; cases h

/-- A report of blocks `0` to `n - 1`. -/
def allReport (final : Bool) (n : Nat) : UlAckDesc := ⟨final, n, [0, 0, 0, 0, 0, 0, 0, UInt8.ofNat (2 ^ n - 1)]⟩

/-- Two timeslots, a frame of 90 octets: after blocks with countdown values 2, 1 and 0 the network regards the transfer
as complete, and so does the mobile station. -/
def twoSlots : List SessionEv := [.send false, .send false, .send false, .upArrives, .upArrives, .upArrives,
  .report (allReport true 3) 0, .downArrives]

/-- **C148** is false of the code with two timeslots: the last 30 octets are never sent, and the network puts together a
frame of 60 octets. -/
theorem c148_violated : ¬ C148Statement := by
  intro H
  have h : (match sRunB false twoSlots (Session.init ⟨20, none, 15, 2⟩ [List.replicate 90 1]) with
      | some s => s.done && decide (s.recovered = some [List.replicate 60 1]) && decide (s.later = []) &&
          decide (s.arrived = [List.replicate 90 1])
      | none => false) = true := by decide +kernel
  cases hr : sRunB false twoSlots (Session.init ⟨20, none, 15, 2⟩ [List.replicate 90 1]) with
  | none => rw [hr] at h; cases h
  | some s =>
    rw [hr] at h
    simp only [Bool.and_eq_true, decide_eq_true_eq] at h
    obtain ⟨⟨⟨h1, h2⟩, h3⟩, h4⟩ := h
    obtain ⟨_, _, up, u1, _, u3⟩ := H s (sRunB_any (.init _ _ ⟨by unfold SizeOk; decide, by decide, by decide⟩ trivial
      (by intro f hf; rw [List.mem_singleton.1 hf]; decide)) hr)
    rw [h2] at u1
    injection u1 with u1
    have := u3 h1
    rw [h3, h4, ← u1] at this
    revert this
    decide

/-- **C149** is false of the code with two timeslots: an N-PDU of 80 octets is lost, although the mobile station is told
that the TBF is complete. -/
theorem c149_violated : ¬ C149Statement := by
  intro H
  have hn : Npdus [List.replicate 80 1] := by
    intro n hn
    rw [List.mem_singleton.1 hn]
    exact ⟨by decide, by decide⟩
  obtain ⟨frames, g1, g2⟩ := H (samplePath true) _ (samplePath_ready true) hn
  obtain ⟨frames', g1', g3, _⟩ := upper_path (samplePath_ready true) hn
  rw [g1] at g1'
  injection g1' with g1'
  subst g1'
  have h : (match (samplePath true).send [List.replicate 80 1] with
      | .ok fs => (match sRunB false twoSlots (Session.init ⟨20, none, 15, 2⟩ fs) with
        | some s => s.done && decide (s.later = []) && decide (s.arrived = fs) &&
          (match s.recovered with
          | some up => (match (samplePath true).receive up with
            | .ok got => decide (got = [])
            | _ => false)
          | none => false)
        | none => false)
      | _ => false) = true := by decide +kernel
  rw [g1] at h
  simp only at h
  cases hr : sRunB false twoSlots (Session.init ⟨20, none, 15, 2⟩ frames) with
  | none => rw [hr] at h; cases h
  | some s =>
    rw [hr] at h
    simp only [Bool.and_eq_true, decide_eq_true_eq] at h
    obtain ⟨⟨⟨h1, h2⟩, h3⟩, h4⟩ := h
    obtain ⟨up, got, u1, u2, _, u4⟩ := g2 s (sRunB_any (.init _ _ ⟨by unfold SizeOk; decide, by decide, by decide⟩ trivial
      g3) hr) (by rw [h3])
    rw [u1] at h4
    simp only [u2, decide_eq_true_eq] at h4
    rw [u4 h3 h1 h2] at h4
    exact absurd h4 (by decide)

/-- One timeslot, contention resolution, a lost block, a lost report, a change of the coding scheme during the countdown,
a frame that comes too late for the first TBF and is sent in a second one. -/
def oneSlot : List SessionEv := [.frame (List.replicate 30 2), .send false, .upLost, .send false, .upArrives,
  .report ⟨false, 2, [0, 0, 0, 0, 0, 0, 0, 1]⟩ 1, .downArrives, .send false, .upArrives, .frame (List.replicate 5 3),
  .send false, .upArrives, .report (allReport false 3) 0, .downLost, .send true, .upArrives, .send true, .upArrives,
  .report (allReport true 3) 0, .downArrives, .frame [4, 4], .next ⟨20, none, 4, 1⟩, .send false, .upArrives,
  .report (allReport true 1) 0, .downArrives]

/-- C148 and C149 are not vacuous: this session can happen, and everything arrives. -/
example : ∃ s : Session, s.Reached (fun p => p.ntsK = 1) NoExactSend ∧ s.done = true ∧ s.past.length = 1 ∧
    s.recovered = some [List.replicate 15 1, List.replicate 30 2, List.replicate 5 3, [4, 4]] ∧ s.later = [] := by
  have h : (match sRunB true oneSlot (Session.init ⟨20, some 5, 4, 1⟩ [List.replicate 15 1]) with
      | some s => s.done && decide (s.past.length = 1) &&
          decide (s.recovered = some [List.replicate 15 1, List.replicate 30 2, List.replicate 5 3, [4, 4]]) &&
          decide (s.later = [])
      | none => false) = true := by decide +kernel
  cases hr : sRunB true oneSlot (Session.init ⟨20, some 5, 4, 1⟩ [List.replicate 15 1]) with
  | none => rw [hr] at h; cases h
  | some s =>
    rw [hr] at h
    simp only [Bool.and_eq_true, decide_eq_true_eq] at h
    exact ⟨s, sRunB_one (.init _ _ ⟨by unfold SizeOk; decide, by decide, by decide⟩ rfl
      (by intro f hf; rw [List.mem_singleton.1 hf]; decide)) hr, h.1.1.1, h.1.1.2, h.1.2, h.2⟩

end Verif.Props
