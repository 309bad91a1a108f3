import Verif.Rlc.CtxLemmas

/-!
# The RLC/MAC context: every event keeps the invariant
-/
namespace Verif.Rlc
open Verif Verif.Spec

/-- The event is the transmission of a data block. -/
def IsData : TbfEv → Prop
  | .sendData .. => True
  | _ => False

/-- `P` holds of new TBFs and is kept by the events `E`; after a data block `P'` holds. -/
structure Keeping (env : UlEnv) (E : UlTbf → TbfEv → Prop) (P P' : UlTbf → Prop) : Prop where
  mono : ∀ t, P t → P' t
  start : ∀ u t o, UlStart.run u = (some t, o) → P t
  keep : ∀ t e t' o, E t e → ¬ IsData e → P t → t.step env e = .ok (some t', o) → P t'
  data : ∀ t e t' o, E t e → P t → t.step env e = .ok (some t', o) → P' t'

theorem Ctx.WF.mono {b : Bool} {P P' : UlTbf → Prop} {s : Ctx} (h : s.WF b P) (hP : ∀ t, P t → P' t) : s.WF b P' :=
  ⟨h.nd, h.lt, h.idlt, h.uu, h.ud, h.polls, fun g hg i t e => hP _ (h.ulp g hg i t e)⟩

/-- The entity with a serial number, in a well-formed context. -/
theorem Ctx.WF.only {b : Bool} {P : UlTbf → Prop} {s : Ctx} (h : s.WF b P) {g : Gre} (hg : g ∈ s.es) :
    ∀ g' ∈ s.es, g'.n = g.n → g' = g := fun _ hg' e => mem_unique h.nd hg' hg e

theorem ulId_of {g : Gre} {i : Nat} {t : UlTbf} (h : g.ul = some (i, t)) : g.ulId = some i := by
  simp [Gre.ulId, h]

theorem dlId_of {g : Gre} {d : DlLink} (h : g.dl = some d) : g.dlId = some d.id := by
  simp [Gre.dlId, h]

theorem putUl_dl {s : Ctx} {n id : Nat} {r : Option UlTbf} {g' : Gre} (h : g' ∈ (s.putUl n id r).es) :
    ∃ g ∈ s.es, g'.n = g.n ∧ g'.dl = g.dl ∧ g'.ass = g.ass := by
  cases r with
  | none =>
    obtain ⟨g, hg, rfl⟩ := mem_setGre.1 h
    refine ⟨g, hg, ?_⟩
    split
    · refine ⟨ulFreed_n g id, ?_⟩
      unfold Gre.ulFreed
      split
      · split <;> exact ⟨rfl, rfl⟩
      · exact ⟨rfl, rfl⟩
    · exact ⟨rfl, rfl, rfl⟩
  | some t =>
    obtain ⟨g, hg, rfl⟩ := mem_setGre.1 h
    refine ⟨g, hg, ?_⟩
    split <;> exact ⟨rfl, rfl, rfl⟩

theorem putUl_n (s : Ctx) (n id : Nat) (r : Option UlTbf) : (s.putUl n id r).es.map Gre.n = s.es.map Gre.n := by
  cases r with
  | none => exact map_n_setGre s n _ (fun g => ulFreed_n g id)
  | some t => exact map_n_setGre s n _ (fun _ => rfl)

section tick
variable {b : Bool} {env : UlEnv} {E : UlTbf → TbfEv → Prop} {P P' : UlTbf → Prop}

theorem wf_tickUl (k : Keeping env E P P') {s s' : Ctx} (h : s.WF b P) {fn ts : Nat} (hE : ∀ t, E t (.tick fn ts))
    {g : Gre} (hg : g ∈ s.es) (e : s.tickUl fn ts g = .ok s') :
    s'.WF b P ∧ ∃ id r, s' = s ∨ s' = s.putUl g.n id r := by
  unfold Ctx.tickUl at e
  split at e
  · cases e; exact ⟨h, 0, none, .inl rfl⟩
  · rename_i id t hu
    split at e
    · rename_i r o ht
      cases e
      refine ⟨wf_putUl h (fun _ x => x) (fun t' er => ?_) (fun g' hg' e' => ?_), id, r, .inr rfl⟩
      · subst er
        exact k.keep t (.tick fn ts) t' o (hE t) (fun x => x) (h.ulp g hg id t hu) ht
      · rw [h.only hg g' hg' e']; exact ulId_of hu
    · cases e
    · cases e

theorem wf_tickDl {s : Ctx} (h : s.WF b P) {fn ts : Nat} {g : Gre}
    (hg : ∀ g' ∈ s.es, g'.n = g.n → g'.dlId = g.dlId) : (s.tickDl fn ts g).1.WF b P := by
  unfold Ctx.tickDl
  split
  · exact wf_complDl h hg
  · exact h

theorem wf_tickAll (k : Keeping env E P P') {fn ts : Nat} (hE : ∀ t, E t (.tick fn ts)) (ns : List Nat) :
    ∀ {s s' : Ctx} {o : List CtxOut}, s.WF b P → s.tickAll fn ts ns = .ok (s', o) → s'.WF b P := by
  induction ns with
  | nil => intro s s' o h e; simp only [Ctx.tickAll, Res.ok.injEq, Prod.mk.injEq] at e; rw [← e.1]; exact h
  | cons n ns ih =>
    intro s s' o h e
    simp only [Ctx.tickAll] at e
    split at e
    · exact ih h e
    · rename_i g hg
      have hgm := (gre?_mem hg).1
      split at e
      · rename_i s1 h1
        split at e
        · rename_i s2 o2 h2
          simp only [Res.ok.injEq, Prod.mk.injEq] at e
          obtain ⟨w1, id, r, h3⟩ := wf_tickUl k h hE hgm h1
          refine e.1 ▸ ih (wf_tickDl w1 (fun g' hg' en => ?_)) h2
          rcases h3 with rfl | rfl
          · rw [h.only hgm g' hg' en]
          · obtain ⟨g0, hg0, e1, e2, -⟩ := putUl_dl hg'
            have := h.only hgm g0 hg0 (by rw [← e1]; exact en)
            rw [Gre.dlId, e2, this]; rfl
        · cases e
        · cases e
      · cases e
      · cases e

end tick

/-! ## The selection of a block -/

theorem ulOwner_mem {s : Ctx} {id : Nat} {g : Gre} (h : s.ulOwner id = some g) : g ∈ s.es ∧ g.ulId = some id := by
  refine ⟨List.mem_of_find?_eq_some h, ?_⟩
  have := List.find?_some h
  split at this
  · rename_i i t e
    rw [Gre.ulId, e]
    simpa using this
  · cases this

theorem dlOwner_mem {s : Ctx} {id : Nat} {g : Gre} (h : s.dlOwner id = some g) : g ∈ s.es ∧ g.dlId = some id := by
  refine ⟨List.mem_of_find?_eq_some h, ?_⟩
  have := List.find?_some h
  split at this
  · rename_i d e
    rw [Gre.dlId, e]
    simpa using this
  · cases this

/-- What the candidate of the poll says about the context. -/
def CandOk (s : Ctx) : Cand → Prop
  | .dlAckFinal n id => ∃ g ∈ s.es, g.n = n ∧ g.dlId = some id
  | .newUl n id => ∃ g ∈ s.es, g.n = n ∧ g.ulId = some id
  | .ulAck n => ∃ g ∈ s.es, g.n = n
  | .dlAss n => ∃ g ∈ s.es, g.n = n
  | .pollUlAss n id => ∃ g ∈ s.es, g.n = n ∧ g.ulId = some id
  | .dlAck n id => ∃ g ∈ s.es, g.n = n ∧ g.dlId = some id

theorem pollCand_ok {s : Ctx} {o : Avail} {x : PollNode} {c : Cand} (h : s.pollCand o x = .ok (some c)) :
    CandOk s c := by
  unfold Ctx.pollCand at h
  split at h
  · split at h
    · rename_i g hg
      cases h
      exact ⟨g, (ulOwner_mem hg).1, rfl, (ulOwner_mem hg).2⟩
    · cases h
  · split at h
    · rename_i g hg
      cases h
      exact ⟨g, (gre?_mem hg).1, rfl⟩
    · cases h
  · split at h
    · rename_i g hg
      simp only [Res.ok.injEq, Option.some.injEq] at h
      subst h
      split
      · exact ⟨g, (ulOwner_mem hg).1, rfl, (ulOwner_mem hg).2⟩
      · exact ⟨g, (ulOwner_mem hg).1, rfl⟩
    · cases h
  · split at h
    · rename_i g hg
      split at h
      · simp only [Res.ok.injEq, Option.some.injEq] at h
        subst h
        split <;> exact ⟨g, (dlOwner_mem hg).1, rfl, (dlOwner_mem hg).2⟩
      · cases h
    · cases h
  · cases h
  · cases h

theorem wf_releaseNode {b : Bool} {P : UlTbf → Prop} {s : Ctx} (h : s.WF b P) (ts : Nat) (x : PollNode) :
    (s.releaseNode ts x).WF b P := by
  have g := getD_polls h.polls ts
  exact wf_polls h _ (polls_set h.polls ts _ (fun y hy => g.1 y (List.mem_of_mem_erase hy))
    (List.Nodup.sublist (List.Sublist.map _ List.erase_sublist) g.2))

theorem wf_expire {b : Bool} {P : UlTbf → Prop} {s : Ctx} (h : s.WF b P) (ts fn : Nat) : (s.expire ts fn).WF b P := by
  have g := getD_polls h.polls ts
  exact wf_polls h _ (polls_set h.polls ts _ (fun y hy => g.1 y (List.mem_filter.1 hy).1) (nodup_map_filter _ g.2))

theorem takePoll_wf {b : Bool} {P : UlTbf → Prop} {s s' : Ctx} (h : s.WF b P) {o : Avail} {ts fn : Nat}
    {c : Option Cand} (e : s.takePoll o ts fn = .ok (s', c)) :
    s'.WF b P ∧ s'.es = s.es ∧ s'.tbfs = s.tbfs ∧ ∀ c', c = some c' → CandOk s' c' := by
  unfold Ctx.takePoll at e
  split at e
  · cases e; exact ⟨h, rfl, rfl, fun c' e => by cases e⟩
  · rename_i x hx
    split at e
    · rename_i c1 hc
      cases e
      refine ⟨wf_releaseNode h ts x, rfl, rfl, fun c' e => ?_⟩
      subst e
      have := pollCand_ok hc
      cases c' <;> exact this
    · cases e
    · cases e

section select
variable {b : Bool} {env : UlEnv} {E : UlTbf → TbfEv → Prop} {P P' : UlTbf → Prop}

theorem wf_ulAssMsg (k : Keeping env E P P') (hE : ∀ t x, E t (.pollAss x)) {s : Ctx} (h : s.WF b P) (o : Avail)
    (n : Nat) : (s.ulAssMsg o n).1.WF b P := by
  unfold Ctx.ulAssMsg
  split
  · exact h
  · rename_i g hg
    obtain ⟨hm, hn⟩ := gre?_mem hg
    split
    · exact h
    · rename_i id t hu
      simp only []
      refine wf_putUl h (fun _ x => x) (fun t' er => ?_) (fun g' hg' e' => ?_)
      · simp only [Option.some.injEq] at er
        subst er
        exact k.keep t (.pollAss _) _ _ (hE t _) (fun x => x) (h.ulp g hm id t hu) rfl
      · rw [h.only hm g' hg' (by rw [e', hn])]; exact ulId_of hu

theorem acked_id (d : DlLink) : d.acked.id = d.id := by
  unfold DlLink.acked
  split <;> rfl

theorem wf_newUl_none (k : Keeping env E P P') {s : Ctx} (h : s.WF b P) {g : Gre} (hg : g ∈ s.es) (hu : g.ul = none)
    (u : UlStart) {t : UlTbf} {o : List UlOut} (hr : u.run = (some t, o)) :
    ({ s.putUl g.n s.tbfs (some t) with tbfs := s.tbfs + 1 } : Ctx).WF b P := by
  have hz : ∀ g' ∈ s.es, g'.n = g.n → g'.ulId = none := by
    intro g' hg' e
    rw [h.only hg g' hg' e, Gre.ulId, hu]; rfl
  exact wf_newUl h (k.start u t o hr) s.polls (fun _ _ => .inl ⟨rfl, hz⟩) 0 (fun g' hg' e => .inl (hz g' hg' e))

theorem wf_dlAckMsg (k : Keeping env E P P') {s : Ctx} (h : s.WF b P) (o : Avail) (n ts : Nat) :
    (s.dlAckMsg o n ts).1.WF b P := by
  unfold Ctx.dlAckMsg
  split
  · exact h
  · rename_i g hg
    obtain ⟨hm, rfl⟩ := gre?_mem hg
    split
    · exact h
    · rename_i d hd
      have w1 : (if g.wantsUl o then { s.putUl g.n s.tbfs (UlStart.fromDl ts).run.1 with tbfs := s.tbfs + 1 }
          else s : Ctx).WF b P := by
        split
        · rename_i hw
          have hu : g.ul = none := by
            unfold Gre.wantsUl at hw
            simp only [Bool.and_eq_true, Option.isNone_iff_eq_none] at hw
            exact hw.1
          exact wf_newUl_none k h hm hu (.fromDl ts) rfl
        · exact h
      have d1 : ∀ g' ∈ (if g.wantsUl o then { s.putUl g.n s.tbfs (UlStart.fromDl ts).run.1 with tbfs := s.tbfs + 1 }
          else s : Ctx).es, g'.n = g.n → g'.dl = some d := by
        intro g' hg' en
        split at hg'
        · obtain ⟨g0, h0, e1, e2, -⟩ := putUl_dl (s := s) (r := (UlStart.fromDl ts).run.1) hg'
          rw [e2, h.only hm g0 h0 (by rw [← e1]; exact en), hd]
        · rw [h.only hm g' hg' en, hd]
      simp only []
      split
      · refine wf_set w1 g.n _ (fun _ => rfl) (fun g' hg' en => ⟨rfl, ?_⟩) (fun _ x => x)
          (fun g' hg' _ i t e => w1.ulp g' hg' i t e)
        rw [dlId_of (d1 g' hg' en)]
        simp [Gre.dlId, acked_id]
      · exact w1

theorem wf_newUlMsg (k : Keeping env E P P') (hE : ∀ t x, E t (.pollAss x)) {s : Ctx} (h : s.WF b P) {o : Avail}
    {n id fn ts usf : Nat} (hc : ∃ g ∈ s.es, g.n = n ∧ g.ulId = some id) {r : Ctx × Option (Nat × UlBlk)}
    (e : s.newUlMsg o n id fn ts usf = .ok r) : r.1.WF b P := by
  unfold Ctx.newUlMsg at e
  split at e
  · cases e
  · rename_i g hg
    obtain ⟨hm, rfl⟩ := gre?_mem hg
    split at e
    · cases e
    · rename_i i old hu
      simp only [] at e
      split at e
      · cases e
        obtain ⟨g0, h0, hn, hid⟩ := hc
        have hi : ∀ g' ∈ s.es, g'.n = g.n → g'.ulId = some id := by
          intro g' hg' en
          rw [h.only hm g' hg' en, ← h.only hm g0 h0 hn, hid]
        exact wf_ulAssMsg k hE (wf_newUl h (k.start (.fromReleasing old.cur) _ _ rfl) (dropTbf id s.polls)
          (fun j hj => .inr (by
            have := hj g hm rfl
            rw [hi g hm rfl] at this
            rcases this with x | x
            · cases x
            · cases x; rfl)) id (fun g' hg' en => .inr (hi g' hg' en))) o g.n
      · cases e

theorem wf_resReqMsg (k : Keeping env E P P') (hE : ∀ t x, E t (.pollAss x)) {s : Ctx} (h : s.WF b P) (o : Avail)
    (ua : Option Gre) : (s.resReqMsg o ua).1.WF b P := by
  cases ua with
  | none => exact h
  | some g => exact wf_ulAssMsg k hE h o g.n

theorem orNext_wf {r : Ctx × Option (Nat × UlBlk)} {f : Ctx → Ctx × Option (Nat × UlBlk)} (h : r.1.WF b P)
    (hf : ∀ s : Ctx, s.WF b P → (f s).1.WF b P) : (orNext r f).1.WF b P := by
  unfold orNext
  split
  · exact h
  · exact hf _ h

theorem wf_selectCtrl (k : Keeping env E P P') (hE : ∀ t x, E t (.pollAss x)) {s : Ctx} (h : s.WF b P) {o : Avail}
    {fn ts usf : Nat} {ua : Option Gre} {c : Option Cand} (hc : ∀ c', c = some c' → CandOk s c')
    {r : Ctx × Option (Nat × UlBlk)} (e : s.selectCtrl o fn ts usf ua c = .ok r) : r.1.WF b P := by
  have hrr : ∀ s : Ctx, s.WF b P → (s.resReqMsg o ua).1.WF b P := fun s h => wf_resReqMsg k hE h o ua
  unfold Ctx.selectCtrl at e
  split at e
  · cases e; exact orNext_wf (wf_dlAckMsg k h o _ ts) hrr
  · rename_i n id
    split at e
    · rename_i r' hr
      cases e
      exact orNext_wf (wf_newUlMsg k hE h (hc _ rfl) hr) hrr
    · cases e
    · cases e
  · cases e; exact h
  · cases e; exact orNext_wf h hrr
  · cases e; exact orNext_wf (wf_ulAssMsg k hE h o _) hrr
  · cases e; exact orNext_wf (hrr s h) (fun s h => wf_dlAckMsg k h o _ ts)
  · cases e; exact hrr s h

theorem wf_selectData (k : Keeping env E P P') {s : Ctx} (h : s.WF b P) {o : Avail} {ts usf : Nat}
    (hE : ∀ t f, P t → E t (.sendData ts usf f o.rachOk)) {s' : Ctx} {m : Option (Nat × UlBlk)} {ro : List CtxOut}
    (e : s.selectData env o ts usf = .ok (s', m, ro)) : s'.WF b P' ∧ (m = none → s' = s ∧ ro = []) := by
  unfold Ctx.selectData at e
  split at e
  · cases e; exact ⟨h.mono k.mono, fun _ => ⟨rfl, rfl⟩⟩
  · rename_i g hg
    have hm := List.mem_of_find?_eq_some hg
    have hr := List.find?_some hg
    split at e
    · rename_i id t final hu hb
      split at e
      · rename_i r outs hs
        simp only [Res.ok.injEq, Prod.mk.injEq] at e
        obtain ⟨rfl, rfl, rfl⟩ := e
        refine ⟨wf_putUl h k.mono (fun t' er => ?_) (fun g' hg' e' => ?_), fun x => by cases x⟩
        · subst er
          have hd : t.dataRts ts usf = true := by
            simpa [Gre.dataRts, hu] using hr
          exact k.data t (.sendData ts usf final o.rachOk) t' outs (hE t final (h.ulp g hm id t hu))
            (h.ulp g hm id t hu) (by simp only [UlTbf.step, hd, if_true]; exact hs)
        · rw [h.only hm g' hg' e']; exact ulId_of hu
      · cases e
      · cases e
    · cases e; exact ⟨h.mono k.mono, fun _ => ⟨rfl, rfl⟩⟩

theorem wf_selectDummy (k : Keeping env E P P') {s : Ctx} (h : s.WF b P) (o : Avail) (ts usf : Nat)
    (hE : ∀ t, E t (.sendDummy ts usf)) : (s.selectDummy o ts usf).1.WF b P := by
  unfold Ctx.selectDummy
  split
  · exact h
  · rename_i g hg
    have hm := List.mem_of_find?_eq_some hg
    have hr := List.find?_some hg
    split
    · exact h
    · rename_i id t hu
      split
      · simp only []
        refine wf_putUl h (fun _ x => x) (fun t' er => ?_) (fun g' hg' e' => ?_)
        · simp only [Option.some.injEq] at er
          have hd : t.dummyRts ts usf = true := by
            simpa [Gre.dummyRts, hu] using hr
          subst er
          exact k.keep t (.sendDummy ts usf) _ [.dummy] (hE t) (fun x => x) (h.ulp g hm id t hu)
            (by simp only [UlTbf.step, hd, if_true])
        · rw [h.only hm g' hg' e']; exact ulId_of hu
      · exact h

/-- The events of uplink TBFs when the scheduler is asked for a block are in `E`. -/
structure RtsIn (E : UlTbf → TbfEv → Prop) (P : UlTbf → Prop) (o : Avail) (fn ts usf : Nat) : Prop where
  tick : ∀ t, E t (.tick fn ts)
  poll : ∀ t x, E t (.pollAss x)
  data : ∀ t f, P t → E t (.sendData ts usf f o.rachOk)
  dummy : ∀ t, E t (.sendDummy ts usf)

theorem wf_select (k : Keeping env E P P') {s : Ctx} (h : s.WF b P) {o : Avail} {fn ts usf : Nat}
    (hE : RtsIn E P o fn ts usf) {ua : Option Gre} {c : Option Cand} (hc : ∀ c', c = some c' → CandOk s c')
    {s' : Ctx} {m : Option (Nat × UlBlk)} {ro : List CtxOut} (e : s.select env o fn ts usf ua c = .ok (s', m, ro)) :
    s'.WF b P' := by
  unfold Ctx.select at e
  split at e
  · rename_i s1 m1 h1
    cases e
    exact (wf_selectCtrl k hE.poll h hc h1).mono k.mono
  · rename_i s1 h1
    have w1 := wf_selectCtrl k hE.poll h hc h1
    split at e
    · rename_i s2 m2 ro2 h2
      cases e
      exact (wf_selectData k w1 hE.data h2).1
    · rename_i s2 ro2 h2
      simp only [Res.ok.injEq, Prod.mk.injEq] at e
      have := (wf_selectData k w1 hE.data h2).2 rfl
      rw [← e.1, this.1]
      exact (wf_selectDummy k w1 o ts usf hE.dummy).mono k.mono
    · cases e
    · cases e
  · cases e
  · cases e

theorem wf_serve (k : Keeping env E P P') {s : Ctx} (h : s.WF b P) {o : Avail} {fn ts usf : Nat}
    (hE : RtsIn E P o fn ts usf) {s' : Ctx} {out : List CtxOut} (e : s.serve env o fn ts usf = .ok (s', out)) :
    s'.WF b P' := by
  unfold Ctx.serve at e
  split at e
  · rename_i s1 c h1
    obtain ⟨w, -, -, hc⟩ := takePoll_wf h h1
    split at e
    · rename_i s2 m ro h2
      cases e
      exact wf_expire (wf_select k w hE hc h2) ts fn
    · cases e
    · cases e
  · cases e
  · cases e

theorem wf_rts (k : Keeping env E P P') {s : Ctx} (h : s.WF b P) {o : Avail} {fn ts usf : Nat}
    (hE : RtsIn E P o fn ts usf) {s' : Ctx} {out : List CtxOut} (e : s.rts env o fn ts usf = .ok (s', out)) :
    s'.WF b P' := by
  unfold Ctx.rts at e
  split at e
  · cases e
  · split at e
    · rename_i s1 o1 h1
      have w1 := wf_tickAll k hE.tick _ h h1
      split at e
      · rename_i s2 o2 h2
        cases e
        exact wf_serve k w1 hE h2
      · cases e
      · cases e
    · cases e
    · cases e

end select

/-! ## The other events -/

theorem putUl_some_mem {s : Ctx} {n id : Nat} {t : UlTbf} {g : Gre} (hg : g ∈ s.es) (hn : g.n = n) :
    ∃ g' ∈ (s.putUl n id (some t)).es, g'.n = n ∧ g'.ulId = some id :=
  ⟨{ g with ul := some (id, t) }, mem_setGre.2 ⟨g, hg, by rw [if_pos hn]⟩, hn, rfl⟩

section events
variable {b : Bool} {env : UlEnv} {E : UlTbf → TbfEv → Prop} {P P' : UlTbf → Prop}

/-- A freed TBF reserves nothing. -/
theorem reinit_no_poll (t : UlTbf) (r : Bool) (fn tn : Nat) : UlOut.poll fn tn ∉ (t.reinit r).2 := by
  have a : ∀ (t : UlTbf) x, t.assStart r = some x → UlOut.poll fn tn ∉ x.2 := by
    intro t x h
    unfold UlTbf.assStart at h
    split at h
    · simp only [] at h
      split at h
      · cases h; simp
      · split at h <;> cases h <;> simp
    · cases h
  unfold UlTbf.reinit
  split
  · rename_i x h
    exact a _ _ h
  · simp

theorem timeout_no_poll {t : UlTbf} {r : Bool} {x : Option UlTbf × List UlOut} (h : t.timeout r = .ok x) (fn tn : Nat) :
    UlOut.poll fn tn ∉ x.2 := by
  have acc : UlOut.poll fn tn ∉ (t.accessFailed r).2 := by
    unfold UlTbf.accessFailed
    split
    · simp
    · exact reinit_no_poll _ _ _ _
  unfold UlTbf.timeout at h
  split at h
  · cases h; simp
  · split at h
    · split at h
      · cases h; exact acc
      · cases h
    · split at h
      · split at h
        · cases h; exact acc
        · cases h
      · split at h
        · cases h; simp
        · cases h

theorem rxPktUlAss_some {t : UlTbf} {m : PktUlAss} {poll : Option Nat} {fn tn : Nat} {x : Option UlTbf × List UlOut}
    (h : t.rxPktUlAss env m poll fn tn = .ok x) : x.1 ≠ none := by
  have d : t.doPktUlAss env m poll fn tn = .ok x → x.1 ≠ none := by
    intro h
    unfold UlTbf.doPktUlAss at h
    split at h
    · split at h
      · cases h; simp
      · split at h
        · cases h; simp
        · cases h
        · cases h
    · cases h
    · cases h
  unfold UlTbf.rxPktUlAss at h
  split at h
  · exact d h
  · exact d h
  · cases h; simp

theorem rxAck_some {t : UlTbf} {final tbfEst : Bool} {poll : Option Nat} {fn tn : Nat} {x : Option UlTbf × List UlOut}
    (h : t.rxAck final poll tbfEst fn tn = .ok x) : x.1 ≠ none := by
  unfold UlTbf.rxAck at h
  split at h
  · split at h
    · split at h
      · cases h; simp
      · cases h
      · cases h
    · cases h
    · cases h
  · cases h; simp

theorem rxImmAss_no_poll {t : UlTbf} {m : ImmAss} {fn tn : Nat} {x : Option UlTbf × List UlOut}
    (h : t.rxImmAss env m fn tn = .ok x) : x.1 ≠ none ∧ x.2 = [] := by
  unfold UlTbf.rxImmAss at h
  split at h
  · split at h
    · split at h <;> cases h <;> simp
    · cases h; simp
    · cases h
    · cases h
  · cases h; simp

theorem assTimeout_no_poll {t : UlTbf} {x : Option UlTbf × List UlOut} (h : t.assTimeout = .ok x) : x.2 = [] := by
  unfold UlTbf.assTimeout at h
  split at h
  · cases h; rfl
  · split at h
    · cases h; rfl
    · split at h
      · cases h
      · split at h <;> cases h <;> rfl

theorem wf_ulEvent (k : Keeping env E P P') {s s' : Ctx} (h : s.WF b P) {g : Gre} (hg : g ∈ s.es) {i : Nat} {t : UlTbf}
    (hu : g.ul = some (i, t)) {r : PollReason} (hr : r = .ulAss ∨ r = .ulAck) {x : UlR} {te : TbfEv}
    (hx : x = t.step env te) (hE : E t te) (hd : ¬ IsData te)
    (hp : ∀ y, x = .ok y → (∃ fn tn, UlOut.poll fn tn ∈ y.2) → y.1 ≠ none) {o : List CtxOut}
    (e : s.ulEvent g.n i r x = .ok (s', o)) : s'.WF b P := by
  unfold Ctx.ulEvent at e
  split at e
  · rename_i x' t' outs
    split at e
    · rename_i s1 h1
      cases e
      refine wf_reserveAll outs (wf_putUl h (fun _ x => x) (fun t1 er => ?_) (fun g' hg' e' => ?_)) (fun hm fn => ?_) h1
      · subst er
        exact k.keep t te t1 outs hE hd (h.ulp g hg i t hu) hx.symm
      · rw [h.only hg g' hg' e']; exact ulId_of hu
      · cases t' with
        | none => exact absurd rfl (hp _ rfl hm)
        | some t1 =>
          obtain ⟨g', hg', -, e'⟩ := putUl_some_mem (id := i) (t := t1) hg rfl
          rcases hr with rfl | rfl <;> exact ⟨g', hg', e'⟩
    · cases e
    · cases e
  · cases e
  · cases e

theorem byId_mem {s : Ctx} {id : MsId} {g : Gre} (h : s.byId id = some g) : g ∈ s.es := by
  cases id with
  | ulTfi => exact List.mem_of_find?_eq_some h
  | dlTfi => exact List.mem_of_find?_eq_some h
  | tlli => exact List.mem_of_find?_eq_some h
  | other => cases h

theorem wf_rxPktUlAss (k : Keeping env E P P') {s s' : Ctx} (h : s.WF b P) {id : MsId} {m : PktUlAss} {poll : Option Nat}
    {fn ts : Nat} (hE : ∀ t, E t (.pktUlAss m poll fn ts)) {o : List CtxOut}
    (e : s.rxPktUlAss env id m poll fn ts = .ok (s', o)) : s'.WF b P := by
  unfold Ctx.rxPktUlAss at e
  split at e
  · cases e; exact h
  · rename_i g hg
    split at e
    · cases e; exact h
    · rename_i i t hu
      exact wf_ulEvent k h (byId_mem hg) hu (.inl rfl) (te := .pktUlAss m poll fn ts) rfl (hE t) (fun x => x)
        (fun y hy _ => rxPktUlAss_some hy) e

theorem wf_rxUlAck (k : Keeping env E P P') {s s' : Ctx} (h : s.WF b P) {tfi : Nat} {final tbfEst : Bool}
    {poll : Option Nat} {fn ts : Nat}
    (hE : ∀ g i t, s.byUlTfi tfi = some g → g.ul = some (i, t) → E t (.ack final poll tbfEst fn ts)) {o : List CtxOut}
    (e : s.rxUlAck tfi final poll tbfEst fn ts = .ok (s', o)) : s'.WF b P := by
  unfold Ctx.rxUlAck at e
  split at e
  · cases e; exact h
  · rename_i g hg
    split at e
    · cases e; exact h
    · rename_i i t hu
      exact wf_ulEvent k h (List.mem_of_find?_eq_some hg) hu (.inr rfl) (te := .ack final poll tbfEst fn ts) rfl
        (hE g i t hg hu) (fun x => x) (fun y hy _ => rxAck_some hy) e

theorem wf_rxImmAssUl (k : Keeping env E P P') {s s' : Ctx} (h : s.WF b P) {m : ImmAss} {fn ts : Nat}
    (hE : ∀ t, E t (.immAss m fn ts)) {o : List CtxOut} (e : s.rxImmAssUl env m fn ts = .ok (s', o)) : s'.WF b P := by
  unfold Ctx.rxImmAssUl at e
  split at e
  · cases e; exact h
  · rename_i g hg
    split at e
    · cases e; exact h
    · rename_i i t hu
      exact wf_ulEvent k h (List.mem_of_find?_eq_some hg) hu (.inl rfl) (te := .immAss m fn ts) rfl
        (hE t) (fun x => x) (fun y hy _ => (rxImmAss_no_poll hy).1) e

theorem wf_ulTimer (k : Keeping env E P P') {s s' : Ctx} (h : s.WF b P) {o : Avail} {n : Nat} {u : UlTimer}
    (hE : ∀ t te, te = .timeout o.rachOk ∨ te = .t3168 ∨ te = .t3180 → E t te) {out : List CtxOut}
    (e : s.ulTimer o n u = .ok (s', out)) : s'.WF b P := by
  unfold Ctx.ulTimer at e
  split at e
  · cases e; exact h
  · rename_i g hg
    obtain ⟨hm, rfl⟩ := gre?_mem hg
    split at e
    · cases e; exact h
    · rename_i i t hu
      cases u with
      | tbf =>
        exact wf_ulEvent k h hm hu (.inl rfl) (te := .timeout o.rachOk) rfl (hE _ _ (.inl rfl)) (fun x => x)
          (fun y hy ⟨fn, tn, hp⟩ => absurd hp (timeout_no_poll hy fn tn)) e
      | t3168 =>
        exact wf_ulEvent k h hm hu (.inl rfl) (te := .t3168) rfl (hE _ _ (.inr (.inl rfl))) (fun x => x)
          (fun y hy ⟨fn, tn, hp⟩ => absurd hp (by rw [assTimeout_no_poll hy]; simp)) e
      | t3180 =>
        refine wf_ulEvent k h hm hu (.inl rfl) (te := .t3180) rfl (hE _ _ (.inr (.inr rfl))) (fun x => x)
          (fun y hy hp => ?_) e
        simp only [UlTbf.step] at hy
        split at hy
        · cases hy
          obtain ⟨fn, tn, hp⟩ := hp
          cases hp
        · cases hy
          simp

/-- An entity with a serial number after a change that keeps serial numbers. -/
theorem exists_n {s s' : Ctx} (h : s'.es.map Gre.n = s.es.map Gre.n) {g : Gre} (hg : g ∈ s.es) : ∃ g' ∈ s'.es, g'.n = g.n := by
  have : g.n ∈ s'.es.map Gre.n := h ▸ List.mem_map.2 ⟨g, hg, rfl⟩
  obtain ⟨g', h1, h2⟩ := List.mem_map.1 this
  exact ⟨g', h1, h2⟩

theorem complDl_n (s : Ctx) (g : Gre) : (s.complDl g).1.es.map Gre.n = s.es.map Gre.n :=
  map_n_setGre s g.n _ (fun _ => rfl)

theorem dlAssign_wf {s s' : Ctx} (h : s.WF b P) {g : Gre} (hg : g ∈ s.es) {m : DlAssMsg} {fn : Nat} {o : List CtxOut}
    (e : s.dlAssign env g m fn = .ok (s', o)) : s'.WF b P ∧ s'.es.map Gre.n = s.es.map Gre.n := by
  unfold Ctx.dlAssign at e
  split at e
  · rename_i a ha
    split at e
    · cases e
      exact ⟨wf_set h g.n _ (fun _ => rfl) (fun _ _ _ => ⟨rfl, rfl⟩) (fun _ x => x) (fun g' hg' _ i t e => h.ulp g' hg' i t e),
        map_n_setGre s g.n _ (fun _ => rfl)⟩
    · have e' := congrArg Prod.fst (Res.ok.inj e)
      subst e'
      have w1 : (s.setGre g.n fun g => { g with ass := a }).WF b P :=
        wf_set h g.n _ (fun _ => rfl) (fun _ _ _ => ⟨rfl, rfl⟩) (fun _ x => x) (fun g' hg' _ i t e => h.ulp g' hg' i t e)
      refine ⟨wf_complDl w1 (fun g' hg' en => ?_), ?_⟩
      · obtain ⟨g0, h0, rfl⟩ := mem_setGre.1 hg'
        by_cases e0 : g0.n = g.n
        · rw [if_pos e0] at en ⊢
          rw [h.only hg g0 h0 e0]
        · rw [if_neg e0] at en
          exact absurd en e0
      · rw [complDl_n]
        exact map_n_setGre s g.n _ (fun _ => rfl)
  · cases e
  · cases e

theorem dlAssPoll_wf {s s' : Ctx} (h : s.WF b P) {n : Nat} (hn : ∃ g ∈ s.es, g.n = n) {poll : Option Nat} {fn ts : Nat}
    (e : s.dlAssPoll n poll fn ts = .ok s') : s'.WF b P ∧ s'.es = s.es := by
  unfold Ctx.dlAssPoll at e
  split at e
  · cases e; exact ⟨h, rfl⟩
  · exact ⟨wf_reserve h (show Live b s.es ⟨_, .dlAss, .gre n⟩ from fun _ => hn) e, (reserve_es e).1⟩
  · cases e
  · cases e

theorem wf_ctrlAckRelease {s : Ctx} (h : s.WF b P) (n : Nat) : (s.ctrlAckRelease n).WF b P := by
  unfold Ctx.ctrlAckRelease
  split
  · exact h
  · split
    · exact h
    · split
      · exact wf_freeDl h n _
      · exact h

theorem wf_rxPktDlAss {s s' : Ctx} (h : s.WF b P) {id : MsId} {m : DlAssMsg} {ca : Bool} {poll : Option Nat} {fn ts : Nat}
    {o : List CtxOut} (e : s.rxPktDlAss env id m ca poll fn ts = .ok (s', o)) : s'.WF b P := by
  unfold Ctx.rxPktDlAss at e
  split at e
  · cases e; exact h
  · rename_i g hg
    split at e
    · rename_i s1 o1 h1
      obtain ⟨w1, n1⟩ := dlAssign_wf h (byId_mem hg) h1
      split at e
      · rename_i s2 h2
        simp only [Res.ok.injEq, Prod.mk.injEq] at e
        obtain ⟨rfl, -⟩ := e
        have w2 := (dlAssPoll_wf w1 (exists_n n1 (byId_mem hg)) h2).1
        split
        · exact wf_ctrlAckRelease w2 g.n
        · exact w2
      · cases e
      · cases e
    · cases e
    · cases e

theorem wf_rxImmAssDl {s s' : Ctx} (h : s.WF b P) {tlli tfi : Nat} {st : Option StartTime} {fn ts : Nat}
    {o : List CtxOut} (e : s.rxImmAssDl env tlli tfi st fn ts = .ok (s', o)) : s'.WF b P := by
  unfold Ctx.rxImmAssDl at e
  split at e
  · cases e; exact h
  · rename_i g hg
    exact (dlAssign_wf h (List.mem_of_find?_eq_some hg) e).1

theorem wf_rxDlData {s s' : Ctx} (h : s.WF b P) {tfi : Nat} {last : Bool} {poll : Option Nat} {fn ts : Nat}
    {o : List CtxOut} (e : s.rxDlData tfi last poll fn ts = .ok (s', o)) : s'.WF b P := by
  unfold Ctx.rxDlData at e
  split at e
  · cases e; exact h
  · rename_i g hg
    have hm := List.mem_of_find?_eq_some hg
    split at e
    · cases e; exact h
    · rename_i d hd
      simp only [] at e
      have w1 : (s.setGre g.n fun g => { g with dl := some { d with t3190 := true, st := if last then .finished else d.st } }).WF b P :=
        wf_set h g.n _ (fun _ => rfl) (fun g' hg' en => ⟨rfl, by
          rw [h.only hm g' hg' en, dlId_of hd]; rfl⟩) (fun _ x => x) (fun g' hg' _ i t e => h.ulp g' hg' i t e)
      split at e
      · cases e; exact w1
      · split at e
        · rename_i s2 h2
          cases e
          exact wf_reserve w1 (show Live b _ ⟨_, .dlAck, .tbf d.id⟩ from
            ⟨_, mem_setGre.2 ⟨g, hm, (if_pos rfl).symm⟩, rfl⟩) h2
        · cases e
        · cases e
      · cases e
      · cases e

theorem wf_txCnf {s : Ctx} (h : s.WF b P) (fn ts : Nat) : (s.txCnf fn ts).WF b P := by
  unfold Ctx.txCnf
  split
  · exact h
  · split
    · exact wf_freeUl h _ _
    · exact h

theorem wf_dlTimer {s : Ctx} (h : s.WF b P) (n : Nat) (k : Bool) : (s.dlTimer n k).WF b P := by
  unfold Ctx.dlTimer
  split
  · exact h
  · split
    · exact h
    · rename_i d _
      cases (if k then d.t3192 else d.t3190)
      · exact h
      · exact wf_freeDl h n _

theorem wf_idleTimer {s : Ctx} (h : s.WF b P) (n : Nat) : (s.idleTimer n).1.WF b P := by
  unfold Ctx.idleTimer
  split
  · exact h
  · split
    · exact wf_set h n _ (fun _ => rfl) (fun _ _ _ => ⟨rfl, rfl⟩) (fun _ x => x) (fun g' hg' _ i t e => h.ulp g' hg' i t e)
    · exact h

theorem setGre_setGre (s : Ctx) (n : Nat) (f f' : Gre → Gre) (hf : ∀ g, (f g).n = g.n) :
    (s.setGre n f).setGre n f' = s.setGre n fun g => f' (f g) := by
  unfold Ctx.setGre
  simp only [List.map_map]
  congr 1
  refine List.map_congr_left fun g _ => ?_
  simp only [Function.comp]
  by_cases e : g.n = n
  · rw [if_pos e, if_pos e, if_pos (by rw [hf]; exact e)]
  · rw [if_neg e, if_neg e, if_neg e]

theorem access_run (r : Bool) : (UlStart.access r).run.1 = none ∧ r = false ∨
    ∃ t, (UlStart.access r).run = (some t, [.rach]) ∧ r = true := by
  cases r
  · exact .inl ⟨rfl, rfl⟩
  · exact .inr ⟨_, rfl, rfl⟩

/-- What starting an uplink TBF comes to. -/
theorem startUl_eq {s : Ctx} (h : s.WF b P) (o : Avail) (n : Nat) :
    (s.startUl o n) = (s, []) ∨ ∃ g ∈ s.es, g.n = n ∧ g.ul = none ∧ g.dl = none ∧ o.queued n = true ∧
      ((s.startUl o n) = ({ s.setGre n fun g => { g with ul := none, idle := true } with
          tbfs := s.tbfs + 1, polls := dropTbf s.tbfs s.polls }, []) ∧ o.rachOk = false ∨
       ∃ t, (UlStart.access true).run = (some t, [.rach]) ∧ o.rachOk = true ∧
         (s.startUl o n) = ({ s.putUl n s.tbfs (some t) with tbfs := s.tbfs + 1 }, [.rach n])) := by
  unfold Ctx.startUl
  split
  · exact .inl rfl
  · rename_i g hg
    obtain ⟨hm, rfl⟩ := gre?_mem hg
    split
    · rename_i hc
      simp only [Bool.and_eq_true, Option.isNone_iff_eq_none] at hc
      refine .inr ⟨g, hm, rfl, hc.1.1, hc.1.2, hc.2, ?_⟩
      rcases access_run o.rachOk with ⟨h1, h2⟩ | ⟨t, h1, h2⟩
      · refine .inl ⟨?_, h2⟩
        rw [h2]
        simp only [Ctx.putUl, UlStart.run, UlTbf.assStart, UlTbf.fresh, UlTbf.evAssStart, UlTbf.chg, UlSt.out,
          Ctx.freeUl]
        simp only [List.mem_cons, true_or, if_true, Option.getD_some, Bool.false_eq_true, if_false, rachOuts,
          List.filterMap_nil, Prod.mk.injEq, and_true]
        unfold Ctx.setGre
        simp only [List.map_map, Ctx.mk.injEq, and_true, true_and]
        refine List.map_congr_left fun g' hg' => ?_
        simp only [Function.comp]
        by_cases e : g'.n = g.n
        · rw [if_pos e, if_pos e]
          rw [if_pos (show Gre.n { g' with ul := _ } = g.n from e)]
          have := h.only hm g' hg' e
          subst this
          simp [Gre.ulFreed, hc.1.2]
        · rw [if_neg e, if_neg e, if_neg e]
      · rw [h2] at h1
        refine .inr ⟨t, h1, h2, ?_⟩
        rw [h2, h1]
        simp only [Ctx.putUl, rachOuts, List.filterMap_cons, List.filterMap_nil, Prod.mk.injEq, and_true]
        have := setGre_setGre s g.n (fun g => { g with ul := some (s.tbfs, UlTbf.fresh) })
          (fun g => { g with ul := some (s.tbfs, t) }) (fun _ => rfl)
        unfold Ctx.setGre at this ⊢
        simp only [Ctx.mk.injEq] at this ⊢
        exact ⟨trivial, trivial, this.2.2.1, trivial⟩
    · exact .inl rfl

theorem wf_startUl (k : Keeping env E P P') {s : Ctx} (h : s.WF b P) (o : Avail) (n : Nat) : (s.startUl o n).1.WF b P := by
  rcases startUl_eq h o n with e | ⟨g, hg, rfl, hu, hd, -, ⟨e, -⟩ | ⟨t, hr, -, e⟩⟩
  · rw [e]; exact h
  · rw [e]
    have hz : ∀ g' ∈ s.es, g'.n = g.n → g' = g := h.only hg
    refine wf_update h g.n _ (s.tbfs + 1) _ (Nat.le_succ _) (fun _ => rfl) ?_ ?_ ?_ (fun _ x => x) ?_
    · intro g' _ _ i hi
      rcases hi with hi | hi
      · cases hi
      · exact .inl (.inr hi)
    · intro g' _ _ i hi
      cases hi
    · refine polls_filter _ h.polls fun x hq hx => live_set (fun _ => rfl) (fun g' hg' en i hi => ⟨fun e => ?_, fun e => e⟩) hx
      rw [hz g' hg' en, Gre.ulId, hu] at e
      cases e
    · intro g' _ _ i t e
      cases e
  · rw [e]
    exact wf_newUl_none k h hg hu (.access true) hr

theorem wf_ccchReady (k : Keeping env E P P') (o : Avail) (ns : List Nat) :
    ∀ {s : Ctx}, s.WF b P → (Ctx.ccchReady o ns s).1.WF b P := by
  induction ns with
  | nil => intro s h; exact h
  | cons n ns ih => intro s h; exact ih (wf_startUl k h o n)

theorem live_more {b : Bool} {es es' : List Gre} (h : ∀ g ∈ es, g ∈ es') {x : PollNode} (hx : Live b es x) : Live b es' x := by
  unfold Live at hx ⊢
  split at hx
  · obtain ⟨g, hg, e⟩ := hx; exact ⟨g, h g hg, e⟩
  · obtain ⟨g, hg, e⟩ := hx; exact ⟨g, h g hg, e⟩
  · obtain ⟨g, hg, e⟩ := hx; exact ⟨g, h g hg, e⟩
  · intro hb; obtain ⟨g, hg, e⟩ := hx hb; exact ⟨g, h g hg, e⟩
  · exact hx

theorem wf_addGre {s : Ctx} (h : s.WF b P) (tlli ptmsi : Nat) (imsi : List Nat) : (s.addGre tlli ptmsi imsi).WF b P := by
  unfold Ctx.addGre
  have no : ∀ i, ¬ (⟨⟨s.made, tlli, noTlli, ptmsi, imsi⟩, none, none, .idle, false⟩ : Gre).Has i := by
    rintro i (hi | hi) <;> cases hi
  refine ⟨?_, ?_, ?_, ?_, ?_, ?_, ?_⟩
  · simp only [List.map_append, List.map_cons, List.map_nil]
    rw [List.nodup_append]
    refine ⟨h.nd, by simp, fun a ha c hc => ?_⟩
    obtain ⟨g, hg, rfl⟩ := List.mem_map.1 ha
    have := h.lt g hg
    simp only [List.mem_singleton] at hc
    intro e
    rw [e, hc] at this
    exact Nat.lt_irrefl _ this
  · intro g hg
    rcases List.mem_append.1 hg with h1 | h1
    · exact Nat.lt_succ_of_lt (h.lt g h1)
    · rw [List.mem_singleton.1 h1]; exact Nat.lt_succ_self _
  · intro g hg i hi
    rcases List.mem_append.1 hg with h1 | h1
    · exact h.idlt g h1 i hi
    · rw [List.mem_singleton.1 h1] at hi; exact absurd hi (no i)
  · intro g hg g' hg' i hi hi'
    rcases List.mem_append.1 hg with h1 | h1
    · rcases List.mem_append.1 hg' with h2 | h2
      · exact h.uu g h1 g' h2 i hi hi'
      · rw [List.mem_singleton.1 h2] at hi'; exact absurd hi' (no i)
    · rw [List.mem_singleton.1 h1] at hi; exact absurd hi (no i)
  · intro g hg i hi
    rcases List.mem_append.1 hg with h1 | h1
    · exact h.ud g h1 i hi
    · rw [List.mem_singleton.1 h1] at hi; cases hi
  · exact polls_mono h.polls fun x hx => live_more (fun g hg => List.mem_append_left _ hg) hx
  · intro g hg i t e
    rcases List.mem_append.1 hg with h1 | h1
    · exact h.ulp g h1 i t e
    · rw [List.mem_singleton.1 h1] at e; cases e

theorem wf_unitdata (k : Keeping env E P P') {s : Ctx} (h : s.WF b P) (o : Avail) (tlli : Nat) :
    (s.unitdata o tlli).1.WF b P := by
  unfold Ctx.unitdata
  split
  · exact wf_startUl k h o _
  · exact wf_startUl k (wf_addGre h _ _ _) o _

/-- No answer to a poll is reserved for the entity itself. -/
def NoPollFor (s : Ctx) (n : Nat) : Prop := ∀ l ∈ s.polls, ∀ x ∈ l, x.owner ≠ .gre n

/-- The reservation is one of a TBF of the entity. -/
def Gre.owns (g : Gre) (x : PollNode) : Bool :=
  match x.owner with
  | .tbf i => g.ulId == some i || g.dlId == some i
  | _ => false

/-- The reservations that are left when an entity is freed. -/
theorem dropPolls_eq (g : Gre) (p : List (List PollNode)) :
    g.dropPolls p = p.map fun l => l.filter fun x => !g.owns x := by
  have hd : ∀ (i : Nat) (q : PollNode → Bool) (p : List (List PollNode)),
      dropTbf i (p.map fun l => l.filter q) = p.map fun l => l.filter fun x => q x && decide (x.owner ≠ .tbf i) := by
    intro i q p
    simp only [dropTbf, List.map_map]
    refine List.map_congr_left fun l _ => ?_
    simp only [Function.comp, List.filter_filter]
    refine List.filter_congr fun x _ => ?_
    rw [Bool.and_comm]
  have h0 : p = p.map fun l => l.filter fun _ => true := by
    have : (fun l : List PollNode => l.filter fun _ => true) = id :=
      funext fun l => List.filter_eq_self.2 fun _ _ => rfl
    rw [this, List.map_id]
  unfold Gre.dropPolls
  cases hdl : g.dl with
  | none =>
    cases hul : g.ul with
    | none =>
      simp only []
      conv => lhs; rw [h0]
      refine List.map_congr_left fun l _ => List.filter_congr fun x _ => ?_
      unfold Gre.owns
      split <;> simp [Gre.ulId, Gre.dlId, hdl, hul]
    | some y =>
      simp only []
      conv => lhs; rw [h0, hd]
      refine List.map_congr_left fun l _ => List.filter_congr fun x _ => ?_
      unfold Gre.owns
      split
      · rename_i i e
        by_cases h1 : y.1 = i <;> simp [Gre.ulId, Gre.dlId, hdl, hul, e, h1, eq_comm (a := i)]
      · rename_i e
        simp only [Bool.true_and, Bool.not_false, decide_eq_true_eq]
        exact fun h => e _ h
  | some d =>
    cases hul : g.ul with
    | none =>
      simp only []
      conv => lhs; rw [h0, hd]
      refine List.map_congr_left fun l _ => List.filter_congr fun x _ => ?_
      unfold Gre.owns
      split
      · rename_i i e
        by_cases h1 : d.id = i <;> simp [Gre.ulId, Gre.dlId, hdl, hul, e, h1, eq_comm (a := i)]
      · rename_i e
        simp only [Bool.true_and, Bool.not_false, decide_eq_true_eq]
        exact fun h => e _ h
    | some y =>
      simp only []
      conv => lhs; rw [h0, hd, hd]
      refine List.map_congr_left fun l _ => List.filter_congr fun x _ => ?_
      unfold Gre.owns
      split
      · rename_i i e
        by_cases h1 : d.id = i <;> by_cases h2 : y.1 = i <;>
          simp [Gre.ulId, Gre.dlId, hdl, hul, e, h1, h2, eq_comm (a := i)]
      · rename_i e
        simp only [Bool.true_and, Bool.not_false, Bool.and_eq_true, decide_eq_true_eq]
        exact ⟨fun h => e _ h, fun h => e _ h⟩

theorem owns_ul {g : Gre} {x : PollNode} {i : Nat} (h : x.owner = .tbf i) (hu : g.ulId = some i) : g.owns x = true := by
  simp [Gre.owns, h, hu]

theorem owns_dl {g : Gre} {x : PollNode} {i : Nat} (h : x.owner = .tbf i) (hu : g.dlId = some i) : g.owns x = true := by
  simp [Gre.owns, h, hu]

theorem wf_freeGre {s : Ctx} (h : s.WF b P) {g : Gre} (hg : g ∈ s.es) (hb : b = true → NoPollFor s g.n) :
    (s.freeGre g).WF b P := by
  unfold Ctx.freeGre
  have sub : ∀ e ∈ s.es.filter (fun e => decide (e.n ≠ g.n)), e ∈ s.es := fun e he => (List.mem_filter.1 he).1
  refine ⟨List.Nodup.sublist (List.Sublist.map _ List.filter_sublist) h.nd, fun e he => h.lt e (sub e he),
    fun e he => h.idlt e (sub e he), fun e he e' he' => h.uu e (sub e he) e' (sub e' he'), fun e he => h.ud e (sub e he), ?_,
    fun e he => h.ulp e (sub e he)⟩
  rw [dropPolls_eq]
  have keepg : ∀ g' ∈ s.es, g' ≠ g → g' ∈ s.es.filter (fun e => decide (e.n ≠ g.n)) := by
    intro g' hg' hne
    exact List.mem_filter.2 ⟨hg', by simpa using fun e => hne (h.only hg g' hg' e)⟩
  refine ⟨by rw [List.length_map]; exact h.polls.len, ?_, ?_⟩
  · intro l hl x hx
    obtain ⟨l0, hl0, rfl⟩ := List.mem_map.1 hl
    obtain ⟨hx0, hq⟩ := List.mem_filter.1 hx
    have hq : g.owns x = false := by simpa using hq
    have hv := h.polls.live l0 hl0 x hx0
    unfold Live at hv ⊢
    split at hv
    · rename_i ho
      obtain ⟨g', hg', e⟩ := hv
      exact ⟨g', keepg g' hg' (fun eg => by rw [owns_ul ho (eg ▸ e)] at hq; cases hq), e⟩
    · rename_i ho
      obtain ⟨g', hg', e⟩ := hv
      exact ⟨g', keepg g' hg' (fun eg => by rw [owns_ul ho (eg ▸ e)] at hq; cases hq), e⟩
    · rename_i ho
      obtain ⟨g', hg', e⟩ := hv
      exact ⟨g', keepg g' hg' (fun eg => by rw [owns_dl ho (eg ▸ e)] at hq; cases hq), e⟩
    · rename_i ho
      intro hbt
      obtain ⟨g', hg', e⟩ := hv hbt
      refine ⟨g', keepg g' hg' (fun eg => ?_), e⟩
      exact hb hbt l0 hl0 x hx0 (by rw [ho, ← e, eg])
    · exact hv
  · intro l hl
    obtain ⟨l0, hl0, rfl⟩ := List.mem_map.1 hl
    exact nodup_map_filter _ (h.polls.uniq l0 hl0)

theorem wf_assign {s : Ctx} (h : s.WF b P) (old new ptmsi : Nat) (imsi : List Nat)
    (hb : b = true → old ≠ noTlli → new = noTlli → ∀ g, s.byTlli old = some g → NoPollFor s g.n) :
    (s.assign old new ptmsi imsi).WF b P := by
  unfold Ctx.assign
  split
  · split
    · exact h
    · split
      · exact h
      · exact wf_addGre h _ _ _
  · rename_i ho
    split
    · exact h
    · rename_i g hg
      split
      · rename_i hn
        exact wf_freeGre h (List.mem_of_find?_eq_some hg) (fun e => hb e ho hn g hg)
      · exact wf_set h g.n _ (fun _ => rfl) (fun _ _ _ => ⟨rfl, rfl⟩) (fun _ x => x) (fun g' hg' _ i t e => h.ulp g' hg' i t e)

end events

/-- The events of uplink TBFs that an event of the context causes are in `E`. -/
def EvIn (E : UlTbf → TbfEv → Prop) (P : UlTbf → Prop) (s : Ctx) : CtxEv → Prop
  | .rts o fn ts usf => RtsIn E P o fn ts usf
  | .pktUlAss _ m poll fn ts => ∀ t, E t (.pktUlAss m poll fn ts)
  | .ulAck tfi final poll tbfEst fn ts =>
    ∀ g i t, s.byUlTfi tfi = some g → g.ul = some (i, t) → E t (.ack final poll tbfEst fn ts)
  | .immAssUl m fn ts => ∀ t, E t (.immAss m fn ts)
  | .ulTimer o _ _ => ∀ t te, te = .timeout o.rachOk ∨ te = .t3168 ∨ te = .t3180 → E t te
  | _ => True

/-- No entity is freed while an answer to a poll is reserved for it. -/
def FreeOk (s : Ctx) : CtxEv → Prop
  | .assign old new _ _ => old ≠ noTlli → new = noTlli → ∀ g, s.byTlli old = some g → NoPollFor s g.n
  | _ => True

/-- **Every event keeps the invariant.** -/
theorem step_wf {b : Bool} {env : UlEnv} {E : UlTbf → TbfEv → Prop} {P P' : UlTbf → Prop} (k : Keeping env E P P')
    {s s' : Ctx} (h : s.WF b P) {e : CtxEv} (hE : EvIn E P s e) (hF : b = true → FreeOk s e) {o : List CtxOut}
    (hs : s.step env e = .ok (s', o)) : s'.WF b P' := by
  cases e with
  | rts a fn ts usf => exact wf_rts k h hE hs
  | cnf fn ts => cases hs; exact (wf_txCnf h fn ts).mono k.mono
  | pktUlAss id m poll fn ts => exact (wf_rxPktUlAss k h hE hs).mono k.mono
  | ulAck tfi final poll tbfEst fn ts => exact (wf_rxUlAck k h hE hs).mono k.mono
  | pktDlAss id tfi start mask ca poll fn ts => exact (wf_rxPktDlAss h hs).mono k.mono
  | dlData tfi last poll fn ts => exact (wf_rxDlData h hs).mono k.mono
  | immAssUl m fn ts => exact (wf_rxImmAssUl k h hE hs).mono k.mono
  | immAssDl tlli tfi start fn ts => exact (wf_rxImmAssDl h hs).mono k.mono
  | ccchReady a =>
    have e := congrArg Prod.fst (Res.ok.inj hs)
    exact (show s' = _ from e.symm) ▸ (wf_ccchReady k a _ h).mono k.mono
  | unitdata a tlli =>
    have e := congrArg Prod.fst (Res.ok.inj hs)
    exact (show s' = _ from e.symm) ▸ (wf_unitdata k h a tlli).mono k.mono
  | assign old new ptmsi imsi => cases hs; exact (wf_assign h old new ptmsi imsi hF).mono k.mono
  | ulTimer a n u => exact (wf_ulTimer k h hE hs).mono k.mono
  | t3190 n => cases hs; exact (wf_dlTimer h n false).mono k.mono
  | t3192 n => cases hs; exact (wf_dlTimer h n true).mono k.mono
  | idleTimer n =>
    have e := congrArg Prod.fst (Res.ok.inj hs)
    exact (show s' = _ from e.symm) ▸ (wf_idleTimer h n).mono k.mono

theorem init_wf (b : Bool) (P : UlTbf → Prop) : Ctx.init.WF b P := by
  have no : ∀ {g : Gre}, g ∈ Ctx.init.es → False := fun h => by cases h
  refine ⟨List.nodup_nil, fun _ h => (no h).elim, fun _ h => (no h).elim, fun _ h => (no h).elim,
    fun _ h => (no h).elim, ⟨rfl, ?_, ?_⟩, fun _ h => (no h).elim⟩
  · intro l hl x hx
    rw [List.eq_of_mem_replicate hl] at hx
    cases hx
  · intro l hl
    rw [List.eq_of_mem_replicate hl]
    exact List.nodup_nil

end Verif.Rlc
