import Verif.Props.SmReach
import Verif.Props.GmmAnswer
/-!
# C189: every PDP context a user asks for gets its request to the network
-/
namespace Verif.Props
open Verif Verif.Gmm Verif.Sm Verif.Gsm

/-! ## Specification -/

/-- A history of a device with one mobile station, whose number is `id` and whose IMSI is `I`. -/
structure OneMs (who : Nat → Ident) (I : List Nat) (id : Nat) (l : List SgEv) : Prop where
  who     : ∀ k, (who k).imsi = I
  attach  : ∀ p i d prm, SgEv.gmm (.attachReq p i d prm) ∈ l → i = I
  req     : ∀ r d, SgEv.actReq r d ∈ l → r.msId = id
  outside : ∀ e ∈ l, SgEv.Outside e

/-- **C189**, full statement.  In every history of a device with one mobile station: when it is registered and the
user asks for a PDP context at an NSAPI that is free, ACTIVATE PDP CONTEXT REQUEST for that NSAPI is handed to
LLC. -/
def C189Statement : Prop :=
  ∀ cfg who ok I id l s outs, OneMs who I id l → l.length < 2 ^ 32 → sgRun cfg who ok sg0 l = .ok (s, outs) →
    ∀ r draws g, ActReqOk r → r.msId = id → s.sm.slot id r.nsapi = none → g ∈ s.gmm.es → g.st = .reg →
      ∃ s' o, sgStep cfg who yes s (.actReq r draws) = .ok (s', o) ∧
        ∃ t b, SgOut.gmm I (.llUnitdata t b) ∈ o ∧ IsActReq r.nsapi b

/-! ## The history that refutes it -/

/-- The PDP context at NSAPI 5 of mobile station 0 has been activated. -/
def oneActive : List SgEv := activation (sgReq 0 5 0xc0000001) [] 1 0x4a 4 [0x62, 0xf2, 0x20, 0, 1, 0] 0xc0000005 3 4 [0, 0, 0]

/-- Whether any activation request is handed to LLC. -/
def sendsAny (o : List SgOut) : Bool :=
  o.any fun y => match y with
    | .gmm _ (.llUnitdata _ b) => decide (b.length > 1 ∧ b.getD 1 0 = 0x41)
    | _ => false

/-- **C189 is violated**: the second PDP context of mobile station 0 has session 1, GMM looks for session 0. -/
theorem c189_violated : ¬ C189Statement := by
  intro h
  have hr := sg_ran (cfg := defaultCfg) (l := oneActive) (by decide +kernel)
  have hg : (sgState (sgRun defaultCfg sgWho yes sg0 oneActive)).gmm.es.map (fun g => g.st) = [.reg] := by decide +kernel
  have hs : ((sgState (sgRun defaultCfg sgWho yes sg0 oneActive)).sm.slot 0 6).isNone = true := by decide +kernel
  obtain ⟨g, lst, hl, hg1, -⟩ := List.map_eq_cons_iff.1 hg
  have hw : sgRun defaultCfg (fun _ => sgWho 0) yes sg0 oneActive = sgRun defaultCfg sgWho yes sg0 oneActive := rfl
  obtain ⟨s', o, h1, t, b, h2, a, rest, h3, -⟩ := h defaultCfg (fun _ => sgWho 0) yes (sgWho 0).imsi 0 oneActive _ _
    ⟨fun _ => rfl, by
      intro p i d prm he
      simp [oneActive, activation] at he, by
      intro r d he
      simp only [oneActive, activation, List.mem_cons, List.not_mem_nil, or_false, SgEv.actReq.injEq, reduceCtorEq] at he
      rw [he.1]; rfl, by
      intro e he
      simp only [oneActive, activation, List.mem_cons, List.not_mem_nil, or_false] at he
      rcases he with rfl | rfl | rfl | rfl <;> trivial⟩
    (by decide) (hw.trans hr) (sgReq 0 6 0xc0000005) [] g ⟨by decide, by decide, by decide, by decide⟩ rfl
    (Option.isNone_iff_eq_none.1 hs) (by rw [hl]; exact List.mem_cons_self) hg1
  have hq : (match sgStep defaultCfg (fun _ => sgWho 0) yes (sgState (sgRun defaultCfg sgWho yes sg0 oneActive))
      (.actReq (sgReq 0 6 0xc0000005) []) with
    | .ok x => sendsAny x.2
    | _ => false) = false := by decide +kernel
  rw [h1] at hq
  have : sendsAny o = true := by
    unfold sendsAny
    rw [List.any_eq_true]
    refine ⟨_, h2, ?_⟩
    subst h3
    simp
  dsimp only at hq
  rw [this] at hq
  cases hq

/-! ## SM: sessions -/

theorem smDispatch_sess {c c' : SmCtx} {id i : Nat} {s : Sme} {ev : SmEv} {pre o : List SmOut} {rc : Option Errno}
    (h : smDispatch c id i s ev pre = .ok (c', o, rc)) :
    c'.nextSess = c.nextSess ∧
    (∀ k j x, c'.slot k j = some x → c.slot k j = some x ∨ (k = id ∧ j = i ∧ x.sess = s.sess)) ∧
    (∀ k p, SmOut.unitdataReq k p ∈ o → SmOut.unitdataReq k p ∉ pre →
      ev = .estCnf ∧ k = id ∧ p = buildActReq s ∧ c'.slot id i = some s) := by
  have hsl : ∀ {y : Sme}, y.sess = s.sess → ∀ k j x, (c.put id i (some y)).slot k j = some x →
      c.slot k j = some x ∨ (k = id ∧ j = i ∧ x.sess = s.sess) := by
    intro y hy k j x hx
    rw [slot_put] at hx
    split at hx
    · rename_i hk
      injection hx with hx
      subst hx
      exact Or.inr ⟨hk.1, hk.2, hy⟩
    · exact Or.inl hx
  rcases dispatch_ok h with ⟨s', o', hf, rfl, rfl, -⟩ | ⟨-, rfl, rfl, -⟩
  · rcases smFsm_some hf with ⟨-, -, rfl, rfl⟩ | ⟨-, rfl, ⟨he, rfl⟩ | ⟨-, rfl⟩⟩ | ⟨-, rfl, rfl⟩ |
      ⟨cause, x, -, -, rfl, hx, rfl⟩ | ⟨x, -, -, rfl, hx, rfl⟩
    · refine ⟨rfl, hsl rfl, fun k p hm hp => ?_⟩
      rcases List.mem_append.1 hm with hm | hm
      · exact absurd hm hp
      · rw [List.mem_singleton] at hm; unfold establishOut at hm; cases hm
    · refine ⟨rfl, hsl rfl, fun k p hm hp => ?_⟩
      rcases List.mem_append.1 hm with hm | hm
      · exact absurd hm hp
      · rw [List.mem_singleton] at hm
        unfold txActReq at hm
        injection hm with h1 h2
        exact ⟨he, h1, h2, by rw [slot_put, if_pos ⟨rfl, rfl⟩]⟩
    · refine ⟨rfl, hsl rfl, fun k p hm hp => ?_⟩
      rcases List.mem_append.1 hm with hm | hm
      · exact absurd hm hp
      · rw [List.mem_singleton] at hm; unfold snsmActOut at hm; cases hm
    · refine ⟨rfl, hsl rfl, fun k p hm hp => ?_⟩
      rcases List.mem_append.1 hm with hm | hm
      · exact absurd hm hp
      · cases hm
    · refine ⟨rfl, hsl rfl, fun k p hm hp => ?_⟩
      rcases List.mem_append.1 hm with hm | hm
      · exact absurd hm hp
      · rw [List.mem_singleton] at hm
        rcases (actCnf_ok hx).2 with ⟨-, rfl⟩ | ⟨-, rfl⟩ <;> cases hm
    · refine ⟨rfl, hsl rfl, fun k p hm hp => ?_⟩
      rcases List.mem_append.1 hm with hm | hm
      · exact absurd hm hp
      · rw [List.mem_singleton] at hm
        rcases (actCnf_ok hx).2 with ⟨-, rfl⟩ | ⟨-, rfl⟩ <;> cases hm
  · exact ⟨rfl, hsl rfl, fun k p hm hp => absurd hm hp⟩

/-- What a step of SM does to the sessions, and when it sends an activation request. -/
structure SessStep (c : SmCtx) (ev : SmIn) (c' : SmCtx) (o : List SmOut) : Prop where
  next : (∀ k j x, c'.slot k j = some x → ∃ y, c.slot k j = some y ∧ x.sess = y.sess) ∧ c'.nextSess = c.nextSess ∨
    ∃ r, ev = .actReq r ∧ c'.nextSess = (c.nextSess + 1) % 2 ^ 32 ∧ ∀ k j x, c'.slot k j = some x →
      (∃ y, c.slot k j = some y ∧ x.sess = y.sess) ∨ (k = r.msId ∧ j = r.nsapi ∧ x.sess = c.nextSess)
  req : ∀ k p, SmOut.unitdataReq k p ∈ o → ∃ se a g t i x, ev = .estAcc se a g t ∧ c'.slot k i = some x ∧
    x.sess = se ∧ p = buildActReq x

theorem sm_sess {c c' : SmCtx} {ev : SmIn} {o : List SmOut} {rc : Option Errno}
    (h : smStep c ev = .ok (c', o, rc)) : SessStep c ev c' o := by
  have hd : ∀ {c2 : SmCtx} {id i : Nat} {s s2 : Sme} {e : SmEv} {pre : List SmOut}, (∀ x y, c2.slot x y = c.slot x y) →
      c2.nextSess = c.nextSess → c.slot id i = some s → s2.sess = s.sess → (∀ k p, SmOut.unitdataReq k p ∉ pre) →
      (e = .estCnf → ∃ a g t, ev = .estAcc s.sess a g t) →
      smDispatch c2 id i s2 e pre = .ok (c', o, rc) → SessStep c ev c' o := by
    intro c2 id i s s2 e pre hs hn hsl hse hp he h
    obtain ⟨h1, h2, h3⟩ := smDispatch_sess h
    refine ⟨Or.inl ⟨fun k j x hx => ?_, h1.trans hn⟩, fun k p hm => ?_⟩
    · rcases h2 k j x hx with hx | ⟨rfl, rfl, hx⟩
      · rw [hs] at hx; exact ⟨x, hx, rfl⟩
      · exact ⟨s, hsl, hx.trans hse⟩
    · obtain ⟨h4, rfl, h6, h7⟩ := h3 k p hm (hp k p)
      obtain ⟨a, g, t, rfl⟩ := he h4
      exact ⟨_, a, g, t, i, s2, rfl, h7, hse, h6⟩
  have hnil : ∀ {c2 : SmCtx} {e : Option Errno}, c2.nextSess = c.nextSess →
      (∀ k j x, c2.slot k j = some x → ∃ y, c.slot k j = some y ∧ x.sess = y.sess) →
      Res.ok (c2, ([] : List SmOut), e) = Res.ok (c', o, rc) → SessStep c ev c' o := by
    intro c2 e hn hs h
    injection h with h
    injection h with h1 h
    injection h with h h2
    subst h h1
    exact ⟨Or.inl ⟨hs, hn⟩, fun k p hm => by cases hm⟩
  have hid : ∀ k j x, c.slot k j = some x → ∃ y, c.slot k j = some y ∧ x.sess = y.sess := fun k j x hx => ⟨x, hx, rfl⟩
  have hput : ∀ {id i : Nat} {s s2 : Sme}, c.slot id i = some s → s2.sess = s.sess →
      ∀ k j x, (c.put id i (some s2)).slot k j = some x → ∃ y, c.slot k j = some y ∧ x.sess = y.sess := by
    intro id i s s2 hs he k j x hx
    rw [slot_put] at hx
    split at hx
    · rename_i hk
      injection hx with hx
      subst hx
      obtain ⟨rfl, rfl⟩ := hk
      exact ⟨s, hs, he⟩
    · exact ⟨x, hx, rfl⟩
  cases ev with
  | actReq r =>
    simp only [smStep] at h
    have hs : ∀ c2 : SmCtx, (∀ x y z, c2.slot x y = some z → c.slot x y = some z) → c2.nextSess = c.nextSess →
        startAct c2 r = .ok (c', o, rc) → SessStep c (.actReq r) c' o := by
      intro c2 hs hn h
      unfold startAct at h
      split at h
      · cases h
      · split at h
        · cases h
        · obtain ⟨h1, h2, h3⟩ := smDispatch_sess h
          refine ⟨Or.inr ⟨r, rfl, ?_, fun k j x hx => ?_⟩, fun k p hm => ?_⟩
          · rw [h1, ← hn]
          · rcases h2 k j x hx with hx | ⟨h5, h6, h7⟩
            · refine Or.inl ⟨x, hs k j x ?_, rfl⟩
              rw [← slot_setMs_same c2 r.msId { c2.ms r.msId with ptmsi := r.ptmsi, ptmsiSig := r.ptmsiSig } rfl]
              exact hx
            · exact Or.inr ⟨h5, h6, (show x.sess = c2.nextSess from h7).trans hn⟩
          · obtain ⟨h4, -⟩ := h3 k p hm (by simp)
            cases h4
    unfold actReqStep at h
    split at h
    · cases h
    · split at h
      · cases h
      · split at h
        · cases h
        · split at h
          · split at h
            · split at h
              · exact hnil rfl hid h
              · exact hs c (fun _ _ _ h => h) rfl h
            · cases h
          · refine hs _ (fun x y z hz => ?_) ?_ h
            rotate_left
            · rfl
            unfold SmCtx.slot SmCtx.setMs at hz
            dsimp only at hz
            split at hz
            · cases hz
            · exact hz
  | estAcc sess a g t =>
    simp only [smStep] at h
    rcases withSess_cases h with h | ⟨id, i, s, -, hs, hse, -, -, h⟩
    · exact hnil rfl hid h.symm
    · exact hd (slot_setMs_same c id (withGmm (c.ms id) a g t) rfl) rfl hs rfl (fun k p => List.not_mem_nil)
        (fun _ => ⟨a, g, t, by rw [hse]⟩) h
  | estRej sess =>
    simp only [smStep] at h
    rcases withSess_cases h with h | ⟨id, i, s, -, hs, -, -, -, h⟩
    · exact hnil rfl hid h.symm
    · exact hd (fun _ _ => rfl) rfl hs rfl (fun k p => List.not_mem_nil) (fun h => by cases h) h
  | relInd sess =>
    simp only [smStep] at h
    rcases withSess_cases h with h | ⟨id, i, s, -, hs, -, -, -, h⟩
    · exact hnil rfl hid h.symm
    · exact hd (fun _ _ => rfl) rfl hs rfl (fun k p => List.not_mem_nil) (fun h => by cases h) h
  | unitdataInd sess b =>
    simp only [smStep] at h
    rcases withSess_cases h with h | ⟨id, i, s, -, hs, -, -, -, h⟩
    · exact hnil rfl hid h.symm
    · unfold smRx at h
      have ka := (rxAckBody_keeps s b).sess
      have kr := (rxRejBody_keeps s b).sess
      split at h
      · exact hnil rfl hid h
      · split at h
        · exact hnil rfl hid h
        · cases h
        · split at h
          · split at h
            · rename_i e; rw [e] at ka
              exact hd (fun _ _ => rfl) rfl hs ka (fun k p => List.not_mem_nil) (fun h => by cases h) h
            · rename_i e; rw [e] at ka
              refine hnil ?_ ?_ h
              · rfl
              · exact hput hs ka
            · cases h
          · split at h
            · split at h
              · rename_i e; rw [e] at kr
                exact hd (fun _ _ => rfl) rfl hs kr (fun k p => List.not_mem_nil) (fun h => by cases h) h
              · rename_i e; rw [e] at kr
                refine hnil ?_ ?_ h
                · rfl
                · exact hput hs kr
              · cases h
            · exact hnil rfl hid h
  | modifyInd sess a g t st =>
    simp only [smStep] at h
    rcases withSess_cases h with h | ⟨id, i, s, -, -, -, -, -, h⟩
    · exact hnil rfl hid h.symm
    · injection h with h
      injection h with h1 h
      injection h with h9 _
      subst h1
      refine ⟨Or.inl ⟨fun k j x hx => ?_, rfl⟩, fun k p hm => ?_⟩
      · rw [slot_setMs_same c id (withGmm (c.ms id) a g t) rfl] at hx; exact ⟨x, hx, rfl⟩
      · rw [← h9] at hm
        split at hm
        · unfold statusOuts at hm
          obtain ⟨j, -, hj⟩ := List.mem_filterMap.1 hm
          split at hj
          · split at hj
            · unfold snsmDeactOut at hj; cases hj
            · cases hj
          · cases hj
        · cases hm
  | snsmActRsp t n =>
    simp only [smStep] at h
    rcases withNsapi_cases h with h | h | ⟨id, s, -, hs, h⟩
    · exact hnil rfl hid h.symm
    · cases h
    · exact hd (fun _ _ => rfl) rfl hs rfl (fun k p => List.not_mem_nil) (fun h => by cases h) h
  | snsmDeactRsp t n =>
    simp only [smStep] at h
    rcases withNsapi_cases h with h | h | ⟨id, s, -, hs, h⟩
    · exact hnil rfl hid h.symm
    · cases h
    · split at h
      · rename_i y hy
        refine hd (fun _ _ => rfl) rfl hs rfl (fun k p => ?_) (fun h => by cases h) h
        rw [List.mem_singleton]
        rintro rfl
        unfold deactOut pcoToPrim at hy
        split at hy
        · rw [Res.bind_ok] at hy; cases hy
        · cases hy
      · exact hnil rfl hid h
      · cases h
  | timeout id i =>
    simp only [smStep] at h
    split at h
    · split at h
      · rename_i s hs
        unfold smTimeout at h
        split at h
        · exact hnil rfl hid h
        · refine hnil ?_ (fun k j x hx => ?_) h
          · rfl
          rw [slot_put] at hx
          split at hx
          · cases hx
          · exact ⟨x, hx, rfl⟩
        · dsimp only at h
          split at h
          · cases h
          · split at h
            · refine hd (fun _ _ => rfl) rfl hs ?_ (fun k p => List.not_mem_nil) (fun h => ?_) h
              · rfl
              · cases h
            · injection h with h
              injection h with h1 h
              injection h with h9 _
              subst h1
              refine ⟨Or.inl ⟨hput hs rfl, rfl⟩, fun k p hm => ?_⟩
              rw [← h9] at hm
              unfold toPending establishOut at hm
              rw [List.mem_singleton] at hm
              cases hm
      · exact hnil rfl hid h
    · exact hnil rfl hid h

/-! ## GMM: the session a registration is confirmed under -/

theorem fsm_rej_sess {cfg : GmmCfg} {ok : GmmOut → Bool} {g : Gmme} {c : Nat} {x : Gmme × List GmmOut} {o : GmmOut}
    (h : gmmFsm cfg ok g (.attachRejected c) = some x) (ho : o ∈ x.2) {se p s t : Nat} {ra : Octets}
    (he : o = .estAcc se p s t ra) : se = x.1.sess := by
  unfold gmmFsm at h
  split at h <;> first | (rename_i hq; cases hq; done) | (cases h; done) | skip
  all_goals (injection h with h; subst h)
  unfold attachFailed at ho
  dsimp only at ho
  rcases List.mem_append.1 ho with ho | ho
  · have := toDereg_noCnf ho
    rw [he] at this; exact this.elim
  · rcases List.mem_append.1 (submit_sub ho) with ho | ho <;> split at ho
    · rw [List.mem_singleton] at ho; subst ho; cases he
    · cases ho
    · rw [List.mem_singleton] at ho; subst ho
      unfold estRejOut at he
      split at he
      · injection he with he
        exact he.symm
      · cases he
    · cases ho

theorem step_estSess {cfg : GmmCfg} {ok : GmmOut → Bool} {g : Gmme} {ev : GmmEv} {r : GmmStep}
    (h : gmmStep cfg ok g ev = .ok r) {se p s t : Nat} {ra : Octets} (ho : GmmOut.estAcc se p s t ra ∈ r.out) :
    se = r.g.sess := by
  by_cases hx : ∃ b, ev = .rx b ∧ rd b 1 = .ok 0x04 ∧ rd b 2 = .ok 0x00
  · obtain ⟨b, rfl, hb⟩ := hx
    cases rx_shape h with
    | quiet _ h1 => exact (noCnf_plain (h1 _ ho)).elim
    | event g1 pre fe hs h1 hf hg hr =>
      rw [hg]
      rw [hr] at ho
      cases hfe : fe with
      | attachRejected c =>
        rw [hfe] at ho
        unfold dispatch at ho ⊢
        split
        · rename_i g' out hd
          rw [hd] at ho
          rcases List.mem_append.1 ho with ho | ho
          · exact (noCnf_plain (h1 _ ho)).elim
          · exact fsm_rej_sess hd ho rfl
        · rename_i hd
          rw [hd] at ho
          exact (noCnf_plain (h1 _ ho)).elim
      | _ =>
        rw [hfe] at ho
        exact (dispatch_truth (Or.inl (by intro h; cases h)) h1 ho).2.1
  · exact (c88_truthful_partial h ho (Or.inr hx)).2.1

theorem stepAt_est {cfg : GmmCfg} {ok : GmmOut → Bool} {L : GmmLayer} {k : Nat} {ev : GmmEv} {r : LayerStep}
    (h : stepAt cfg ok L k ev = .ok r) : ∀ x ∈ sgSeen r, ∀ se p s t ra, x.2 = .estAcc se p s t ra →
      ∃ g ∈ r.layer.es, g.sess = se := by
  intro x hx se p s t ra he
  unfold stepAt at h
  split at h
  · rename_i g hg
    obtain ⟨y, hy, h⟩ := bind_eq_ok.1 h
    injection h with h; subst h
    simp only [sgSeen, List.flatMap_cons, List.flatMap_nil, List.append_nil] at hx
    obtain ⟨z, hz, rfl⟩ := List.mem_map.1 hx
    dsimp only at he
    subst he
    obtain ⟨hlt, -⟩ := List.getElem?_eq_some_iff.1 hg
    exact ⟨y.g, List.mem_set hlt _, (step_estSess hy hz).symm⟩
  · injection h with h; subst h
    cases hx

theorem stepFound_est {cfg : GmmCfg} {ok : GmmOut → Bool} {L : GmmLayer} {k : Option Nat} {e : Errno} {ev : GmmEv}
    {r : LayerStep} (h : stepFound cfg ok L k e ev = .ok r) : ∀ x ∈ sgSeen r, ∀ se p s t ra, x.2 = .estAcc se p s t ra →
      ∃ g ∈ r.layer.es, g.sess = se := by
  unfold stepFound at h
  split at h
  · exact stepAt_est h
  · injection h with h; subst h
    intro x hx; cases hx

theorem enableAll_est {cfg : GmmCfg} {ok : GmmOut → Bool} {on : Bool} : ∀ (es : List Gmme),
    ∀ o ∈ (enableAll cfg ok on es).2, ∀ se p s t ra, GmmOut.estAcc se p s t ra ∈ o.obs.out →
      ∃ g ∈ (enableAll cfg ok on es).1, g.sess = se := by
  intro es
  induction es with
  | nil => intro o ho; cases ho
  | cons g es ih =>
    intro o ho se p s t ra he
    simp only [enableAll, List.mem_cons] at ho
    rcases ho with rfl | ho
    · refine ⟨_, List.mem_cons_self, ?_⟩
      exact (dispatch_truth (Or.inl (by split <;> (intro h; cases h))) plain_nil he).2.1.symm
    · obtain ⟨g', h1, h2⟩ := ih o ho se p s t ra he
      exact ⟨g', List.mem_cons_of_mem _ h1, h2⟩

/-- A registration is confirmed under the session GMM has for the mobile station then. -/
theorem layer_est {cfg : GmmCfg} {ok : GmmOut → Bool} {L : GmmLayer} {ev : LayerEv} {r : LayerStep}
    (h : layerStep cfg ok L ev = .ok r) : ∀ x ∈ sgSeen r, ∀ se p s t ra, x.2 = .estAcc se p s t ra →
      ∃ g ∈ r.layer.es, g.sess = se := by
  cases ev with
  | enable on =>
    simp only [layerStep] at h
    split at h
    · injection h with h; subst h
      intro x hx; cases hx
    · injection h with h; subst h
      intro x hx se p s t ra he
      unfold sgSeen at hx
      obtain ⟨o, ho, hx⟩ := List.mem_flatMap.1 hx
      obtain ⟨y, hy, rfl⟩ := List.mem_map.1 hx
      dsimp only at he
      subst he
      exact enableAll_est L.es o ho se p s t ra hy
  | attachReq p i d prm => exact stepAt_est h
  | establishReq s p i d prm => exact stepAt_est h
  | detachReq p ty off => exact stepFound_est h
  | simAuthRsp a k x s kc => exact stepFound_est h
  | smUnitdataReq s pdu => exact stepFound_est h
  | pageInd t => exact stepFound_est h
  | llcTransmitted t => exact stepFound_est h
  | rx t b => exact stepFound_est h
  | fsmTimer k => exact stepAt_est h
  | t3314 k => exact stepAt_est h
  | t3312 k => exact stepAt_est h
  | t3316 k => exact stepAt_est h

/-! ## Both -/

/-- SM in a history of mobile station `id`: all contexts are its own, their sessions have been given out, and the
context with session `id` is at NSAPI `N`. -/
structure SmMany (id N : Nat) (c : SmCtx) : Prop where
  sm   : SmInv c
  slot : ∀ k i x, c.slot k i = some x → k = id ∧ x.sess < c.nextSess ∧ (x.sess = id → i = N)

/-- Both layers. -/
structure ManyInv (I : List Nat) (id N : Nat) (s : SmGmm) : Prop where
  sm    : SmMany id N s.sm
  imsi  : AllIn (· = I) s.gmm
  nodup : (s.gmm.es.map Gmme.imsi).Nodup

/-- Activation requests are for `N`. -/
def OnlyFor (N : Nat) (y : SgOut) : Prop :=
  ∀ i t b, y = .gmm i (.llUnitdata t b) → b.head? = some 0x08 ∨ IsActReq N b

theorem one_entity {I : List Nat} {L : GmmLayer} (hi : AllIn (· = I) L) (hn : (L.es.map Gmme.imsi).Nodup) {g : Gmme}
    (hg : g ∈ L.es) : L.es = [g] := by
  match hL : L.es with
  | [] => rw [hL] at hg; cases hg
  | [a] => rw [hL, List.mem_singleton] at hg; rw [hg]
  | a :: b :: l =>
    exfalso
    have h1 := hi a (by rw [hL]; simp)
    have h2 := hi b (by rw [hL]; simp)
    rw [hL] at hn
    simp only [List.map_cons, List.nodup_cons, List.mem_cons, not_or] at hn
    exact hn.1.1 (h1.trans h2.symm)

theorem sm_many {id N : Nat} {c c' : SmCtx} {ev : SmIn} {o : List SmOut} {rc : Option Errno} (hi : SmMany id N c)
    (h : smStep c ev = .ok (c', o, rc)) (hw : c.nextSess + 1 < 2 ^ 32) (hm : ∀ r, ev = .actReq r → r.msId = id)
    (hN : ∀ r, ev = .actReq r → c'.nextSess ≠ c.nextSess → c.nextSess = id → r.nsapi = N) :
    SmMany id N c' ∧ (c'.nextSess = c.nextSess ∨ (∃ r, ev = .actReq r) ∧ c'.nextSess = c.nextSess + 1) ∧
    ∀ k p, SmOut.unitdataReq k p ∈ o → ∃ se a g t, ev = .estAcc se a g t ∧ k = id ∧ (se = id → IsActReq N p) := by
  obtain ⟨h1, h2⟩ := sm_sess h
  have hi' := step_inv hi.sm h
  have hmany : SmMany id N c' ∧ (c'.nextSess = c.nextSess ∨ (∃ r, ev = .actReq r) ∧ c'.nextSess = c.nextSess + 1) := by
    rcases h1 with ⟨h1, h3⟩ | ⟨r, rfl, h3, h1⟩
    · refine ⟨⟨hi', fun k i x hx => ?_⟩, Or.inl h3⟩
      obtain ⟨y, hy, hs⟩ := h1 k i x hx
      rw [hs, h3]; exact hi.slot k i y hy
    · rw [Nat.mod_eq_of_lt hw] at h3
      refine ⟨⟨hi', fun k i x hx => ?_⟩, Or.inr ⟨⟨r, rfl⟩, h3⟩⟩
      rcases h1 k i x hx with ⟨y, hy, hs⟩ | ⟨rfl, rfl, hs⟩
      · obtain ⟨k1, k2, k3⟩ := hi.slot k i y hy
        rw [hs, h3]; exact ⟨k1, by omega, k3⟩
      · rw [hs, h3]
        exact ⟨hm r rfl, by omega, fun he => hN r rfl (by omega) he⟩
  refine ⟨hmany.1, hmany.2, fun k p hp => ?_⟩
  obtain ⟨se, a, g, t, i, x, rfl, hx, hs, rfl⟩ := h2 k p hp
  obtain ⟨k1, -, k3⟩ := hmany.1.slot k i x hx
  obtain ⟨j1, -, -, -, -, j3, -⟩ := hi'.slot k i x hx
  refine ⟨se, a, g, t, rfl, k1, fun he => ?_⟩
  rw [← k3 (hs.trans he), ← j1]
  exact isActReq_build j3

theorem sgData_many {I : List Nat} {id N se : Nat} {cfg : GmmCfg} {ok : GmmOut → Bool} {s s' : SmGmm} {x : SmOut}
    {o : List SgOut} (hse : ∀ k p, x = .unitdataReq k p → k = id ∧ (se = id → IsActReq N p) ∧ ∀ g ∈ s.gmm.es, g.sess = se)
    (hi : AllIn (· = I) s.gmm) (h : sgData cfg ok s x = .ok (s', o)) : s' = s ∧ ∀ y ∈ o, OnlyFor N y := by
  have hs : s' = s := by
    have h1 := sgData_gmm h
    have h2 := sgData_sm h
    cases s; cases s'
    simp only at h1 h2
    rw [h1, h2]
  refine ⟨hs, ?_⟩
  unfold sgData at h
  split at h
  · rename_i k p
    obtain ⟨r, h1, h⟩ := bind_eq_ok.1 h
    injection h with h
    injection h with h3 h4
    subst h4
    obtain ⟨rfl, hp, hg⟩ := hse k p rfl
    intro y hy i t b hb
    obtain ⟨z, hz, rfl⟩ := List.mem_map.1 hy
    injection hb with hb1 hb2
    obtain ⟨-, h6⟩ := layer_in (K := (· = I)) hi (ev := .smUnitdataReq k p) trivial h1
    refine (h6 z hz t b hb2).2.imp_right ?_
    rintro ⟨s2, hs2⟩
    injection hs2 with _ hs2
    subst hs2
    refine hp ?_
    simp only [layerStep] at h1
    unfold stepFound at h1
    split at h1
    · rename_i j hj
      unfold findSess at hj
      obtain ⟨hlt, hdec, -⟩ := List.findIdx?_eq_some_iff_getElem.1 hj
      rw [← hg _ (List.getElem_mem hlt)]
      simpa using hdec
    · injection h1 with h1; subst h1
      cases hz
  · injection h with h
    injection h with h3 h4
    subst h4
    intro y hy i t b hb
    rw [List.mem_singleton] at hy
    rw [hy] at hb
    cases hb

theorem sgFold_data_many {I : List Nat} {id N se : Nat} {cfg : GmmCfg} {ok : GmmOut → Bool} {l : List SmOut} {s s' : SmGmm}
    {o : List SgOut} (hse : ∀ k p, SmOut.unitdataReq k p ∈ l → k = id ∧ (se = id → IsActReq N p) ∧ ∀ g ∈ s.gmm.es, g.sess = se)
    (hi : AllIn (· = I) s.gmm) (h : sgFold (sgData cfg ok) s l = .ok (s', o)) : s' = s ∧ ∀ y ∈ o, OnlyFor N y :=
  sgFold_inv (P := fun z => z = s) (Q := OnlyFor N) (f := sgData cfg ok) l s s' o (by
    rintro x hx z z' o rfl hf
    exact sgData_many (fun k p hk => hse k p (hk ▸ hx)) hi hf) rfl h

/-- A primitive of GMM at SM. -/
theorem sgUp_many {I : List Nat} {id N : Nat} {cfg : GmmCfg} {ok : GmmOut → Bool} {s s' : SmGmm} {x : List Nat × GmmOut}
    {o : List SgOut} (hi : ManyInv I id N s) (hw : s.sm.nextSess + 1 < 2 ^ 32)
    (hx : ∀ t b, x.2 = .llUnitdata t b → b.head? = some 0x08)
    (he : ∀ se p a t ra, x.2 = .estAcc se p a t ra → ∀ g ∈ s.gmm.es, g.sess = se)
    (h : sgUp cfg ok s x = .ok (s', o)) :
    (ManyInv I id N s' ∧ s'.sm.nextSess = s.sm.nextSess ∧ s'.gmm = s.gmm) ∧ ∀ y ∈ o, OnlyFor N y := by
  unfold sgUp at h
  split at h
  · injection h with h
    injection h with h3 h4
    subst h3 h4
    refine ⟨⟨hi, rfl, rfl⟩, fun y hy i t b hb => ?_⟩
    rw [List.mem_singleton] at hy
    rw [hy] at hb
    injection hb with hb1 hb2
    exact Or.inl (hx t b hb2)
  · rename_i e hin
    obtain ⟨r, h1, hf⟩ := bind_eq_ok.1 h
    clear h
    have hr : ∀ q, e ≠ .actReq q := by
      rintro q rfl
      unfold smInOf at hin
      split at hin <;> cases hin
    obtain ⟨k1, k0, k3⟩ := sm_many (o := r.2.1) (rc := r.2.2) hi.sm h1 hw (fun q hq => absurd hq (hr q))
      (fun q hq => absurd hq (hr q))
    have k2 := k0.resolve_right (fun ⟨⟨q, hq⟩, _⟩ => hr q hq)
    by_cases hem : ∃ se a g t, e = .estAcc se a g t
    · obtain ⟨se, a, g, t, rfl⟩ := hem
      obtain ⟨rfl, h5⟩ := sgFold_data_many (I := I) (id := id) (N := N) (se := se) (s := ⟨r.1, s.gmm⟩) (by
        intro k p hp
        obtain ⟨se', a', g', t', e1, e2, e3⟩ := k3 k p hp
        injection e1 with e1
        subst e1
        refine ⟨e2, e3, fun y hy => ?_⟩
        unfold smInOf at hin
        split at hin <;> first | (injection hin with hin; cases hin) | cases hin
        rename_i hq
        exact he _ _ _ _ _ hq y hy) hi.imsi hf
      exact ⟨⟨⟨k1, hi.imsi, hi.nodup⟩, k2, rfl⟩, h5⟩
    · obtain ⟨rfl, h5⟩ := sgFold_data_many (I := I) (id := id) (N := N) (se := 0) (s := ⟨r.1, s.gmm⟩) (by
        intro k p hp
        obtain ⟨se', a', g', t', e1, -⟩ := k3 k p hp
        exact absurd ⟨_, _, _, _, e1⟩ hem) hi.imsi hf
      exact ⟨⟨⟨k1, hi.imsi, hi.nodup⟩, k2, rfl⟩, h5⟩

/-- An event at GMM and all that SM does because of it. -/
theorem sgGmm_many {I : List Nat} {id N : Nat} {cfg : GmmCfg} {ok : GmmOut → Bool} {s s' : SmGmm} {ev : LayerEv}
    {r : LayerStep} {o : List SgOut} (hi : ManyInv I id N s) (hw : s.sm.nextSess + 1 < 2 ^ 32) (hev : EvImsi (· = I) ev)
    (hno : ∀ a b, ev ≠ .smUnitdataReq a b) (h1 : layerStep cfg (sgOk s.sm ok) s.gmm ev = .ok r)
    (h : sgFold (sgUp cfg ok) ⟨s.sm, r.layer⟩ (sgSeen r) = .ok (s', o)) :
    (ManyInv I id N s' ∧ s'.sm.nextSess = s.sm.nextSess) ∧ ∀ y ∈ o, OnlyFor N y := by
  obtain ⟨h5, h6⟩ := layer_in (K := (· = I)) hi.imsi hev h1
  have h7 := layer_nodup _ _ _ _ _ hi.nodup h1
  have h8 := layer_est h1
  obtain ⟨⟨a, b, -⟩, c⟩ := sgFold_inv (P := fun z => ManyInv I id N z ∧ z.sm.nextSess = s.sm.nextSess ∧ z.gmm = r.layer)
    (Q := OnlyFor N) (f := sgUp cfg ok) _ ⟨s.sm, r.layer⟩ _ _ (by
      rintro x hx z z' o ⟨z1, z2, z3⟩ hf
      have q1 : ∀ t b, x.2 = .llUnitdata t b → b.head? = some 0x08 := by
        intro t b hb
        refine (h6 x hx t b hb).2.resolve_right ?_
        rintro ⟨u, hu⟩
        exact hno _ _ hu
      have q2 : ∀ se p a t ra, x.2 = .estAcc se p a t ra → ∀ g ∈ z.gmm.es, g.sess = se := by
        intro se p a t ra he g hg
        rw [z3] at hg
        obtain ⟨g', k1, k2⟩ := h8 x hx se p a t ra he
        have := one_entity h5 h7 k1
        rw [this, List.mem_singleton] at hg
        rw [hg]; exact k2
      obtain ⟨⟨a, b, c⟩, d⟩ := sgUp_many z1 (by rw [z2]; exact hw) q1 q2 hf
      exact ⟨⟨a, b.trans z2, c.trans z3⟩, d⟩) ⟨⟨hi.sm, h5, h7⟩, rfl, rfl⟩ h
  exact ⟨⟨a, b⟩, c⟩

/-- One event. -/
theorem sgStep_many {I : List Nat} {id N : Nat} {cfg : GmmCfg} {who : Nat → Ident} {ok : GmmOut → Bool} {s s' : SmGmm}
    {e : SgEv} {o : List SgOut} (hone : OneMs who I id [e]) (hi : ManyInv I id N s) (hw : s.sm.nextSess + 2 < 2 ^ 32)
    (hN : ∀ r d c o rc, e = .actReq r d → smStep s.sm (.actReq r) = .ok (c, o, rc) → c.nextSess ≠ s.sm.nextSess →
      s.sm.nextSess = id → r.nsapi = N)
    (h : sgStep cfg who ok s e = .ok (s', o)) :
    (ManyInv I id N s' ∧ (s'.sm.nextSess = s.sm.nextSess ∨ s'.sm.nextSess = s.sm.nextSess + 1 ∧
      ∃ r d c o rc, e = .actReq r d ∧ smStep s.sm (.actReq r) = .ok (c, o, rc) ∧ c.nextSess ≠ s.sm.nextSess)) ∧
    (∀ y ∈ o, OnlyFor N y) ∧
    ∀ r d c o rc, e = .actReq r d → smStep s.sm (.actReq r) = .ok (c, o, rc) → s'.sm.nextSess = c.nextSess := by
  have hsm : ∀ {w : Ident} {draws : List Nat} {i : SmIn}, w.imsi = I → (∀ r, i = .actReq r → ∃ d, e = .actReq r d) →
      (∀ a b c d, i ≠ .estAcc a b c d) → sgSm cfg ok w draws s i = .ok (s', o) →
      (ManyInv I id N s' ∧ (s'.sm.nextSess = s.sm.nextSess ∨ s'.sm.nextSess = s.sm.nextSess + 1 ∧
      ∃ r d c o rc, e = .actReq r d ∧ smStep s.sm (.actReq r) = .ok (c, o, rc) ∧ c.nextSess ≠ s.sm.nextSess)) ∧
      (∀ y ∈ o, OnlyFor N y) ∧ ∀ c o rc, smStep s.sm i = .ok (c, o, rc) → s'.sm.nextSess = c.nextSess := by
    intro w draws i hwho ha hne h
    obtain ⟨r, h1, h⟩ := bind_eq_ok.1 h
    obtain ⟨k1, k2, k3⟩ := sm_many (o := r.2.1) (rc := r.2.2) hi.sm h1 (by omega)
      (fun q hq => by obtain ⟨d, hd⟩ := ha q hq; exact hone.req q d (by rw [hd]; simp))
      (fun q hq h2 h3 => by
        obtain ⟨d, hd⟩ := ha q hq
        subst hq
        exact hN q d _ _ _ hd h1 h2 h3)
    rcases r with ⟨c, os, rc⟩
    dsimp only at *
    have hlow : c.nextSess ≤ s.sm.nextSess + 1 := by rcases k2 with k2 | ⟨-, k2⟩ <;> omega
    by_cases hz : c.nextSess + 1 < 2 ^ 32
    · obtain ⟨⟨a, b⟩, cc⟩ := sgFold_inv (P := fun z => ManyInv I id N z ∧ z.sm.nextSess = c.nextSess) (Q := OnlyFor N)
        (f := sgDown cfg ok w draws) _ ⟨c, s.gmm⟩ _ _ (by
          rintro x hx z z' o ⟨z1, z2⟩ hf
          unfold sgDown at hf
          split at hf
          · rename_i sess p g wi
            obtain ⟨r, h1, hf⟩ := bind_eq_ok.1 hf
            obtain ⟨⟨a, b⟩, d⟩ := sgGmm_many (ev := .establishReq sess p w.imsi draws (estPrm w g wi)) z1 (by rw [z2]; exact hz) hwho
              (fun _ _ h => by cases h) h1 hf
            exact ⟨⟨a, b.trans z2⟩, d⟩
          · obtain ⟨rfl, d⟩ := sgData_many (I := I) (id := id) (N := N) (se := 0) (by
              intro k p hk
              subst hk
              obtain ⟨se, a, g, t, e1, -⟩ := k3 k p hx
              exact absurd e1 (hne _ _ _ _)) z1.imsi hf
            exact ⟨⟨z1, z2⟩, d⟩) ⟨⟨k1, hi.imsi, hi.nodup⟩, rfl⟩ h
      refine ⟨⟨a, ?_⟩, cc, fun c2 o2 rc2 h2 => by
        have h3 := h2.symm.trans h1
        injection h3 with h3
        injection h3 with h3
        rw [h3]; exact b⟩
      rw [b]
      rcases k2 with k2 | ⟨⟨q, hq⟩, k2⟩
      · exact Or.inl k2
      · obtain ⟨d, hd⟩ := ha q hq
        subst hq
        exact Or.inr ⟨k2, q, d, c, os, rc, hd, h1, by omega⟩
    · omega
  cases e with
  | actReq r d =>
    obtain ⟨a, b, c⟩ := hsm (hone.who _) (fun q hq => by injection hq with hq; subst hq; exact ⟨d, rfl⟩)
      (fun _ _ _ _ h => by cases h) h
    exact ⟨a, b, fun q d' c2 o2 rc he hq => by injection he with he; subst he; exact c c2 o2 rc hq⟩
  | timeout k n d =>
    obtain ⟨a, b, -⟩ := hsm (hone.who _) (fun q hq => by cases hq) (fun _ _ _ _ h => by cases h) h
    exact ⟨a, b, fun _ _ _ _ _ he => by cases he⟩
  | snsmActRsp t n =>
    obtain ⟨a, b, -⟩ := hsm (hone.who _) (fun q hq => by cases hq) (fun _ _ _ _ h => by cases h) h
    exact ⟨a, b, fun _ _ _ _ _ he => by cases he⟩
  | snsmDeactRsp t n =>
    obtain ⟨a, b, -⟩ := hsm (hone.who _) (fun q hq => by cases hq) (fun _ _ _ _ h => by cases h) h
    exact ⟨a, b, fun _ _ _ _ _ he => by cases he⟩
  | gmm ev =>
    obtain ⟨r, h1, h⟩ := bind_eq_ok.1 h
    have hout := hone.outside _ List.mem_cons_self
    obtain ⟨⟨a, b⟩, c⟩ := sgGmm_many hi (by omega) (by
      cases ev with
      | attachReq p i d prm => exact hone.attach p i d prm List.mem_cons_self
      | establishReq s p i d prm => exact hout.elim
      | _ => trivial) (by rintro a b rfl; exact hout) h1 h
    exact ⟨⟨a, Or.inl b⟩, c, fun _ _ _ _ _ he => by cases he⟩

theorem OneMs.head {who : Nat → Ident} {I : List Nat} {id : Nat} {e : SgEv} {l : List SgEv} (h : OneMs who I id (e :: l)) :
    OneMs who I id [e] :=
  ⟨h.who, fun p i d prm he => h.attach p i d prm (by rw [List.mem_singleton] at he; rw [he]; exact List.mem_cons_self),
   fun r d he => h.req r d (by rw [List.mem_singleton] at he; rw [he]; exact List.mem_cons_self),
   fun x hx => h.outside x (by rw [List.mem_singleton] at hx; rw [hx]; exact List.mem_cons_self)⟩

theorem OneMs.tail {who : Nat → Ident} {I : List Nat} {id : Nat} {e : SgEv} {l : List SgEv} (h : OneMs who I id (e :: l)) :
    OneMs who I id l :=
  ⟨h.who, fun p i d prm he => h.attach p i d prm (List.mem_cons_of_mem _ he),
   fun r d he => h.req r d (List.mem_cons_of_mem _ he), fun x hx => h.outside x (List.mem_cons_of_mem _ hx)⟩

/-- Once session `id` has been given out. -/
theorem sgRun_after {I : List Nat} {id N : Nat} {cfg : GmmCfg} {who : Nat → Ident} {ok : GmmOut → Bool} :
    ∀ (l : List SgEv) (s s' : SmGmm) (o : List SgOut), OneMs who I id l → ManyInv I id N s → id < s.sm.nextSess →
    s.sm.nextSess + l.length + 2 < 2 ^ 32 → sgRun cfg who ok s l = .ok (s', o) →
    ManyInv I id N s' ∧ ∀ y ∈ o, OnlyFor N y := by
  intro l
  induction l with
  | nil =>
    intro s s' o _ hi _ _ h
    injection h with h
    injection h with h3 h4
    subst h3 h4
    exact ⟨hi, fun y hy => by cases hy⟩
  | cons e l ih =>
    intro s s' o hone hi hlt hw h
    obtain ⟨r, h1, h⟩ := bind_eq_ok.1 h
    obtain ⟨t, h2, h⟩ := bind_eq_ok.1 h
    injection h with h
    injection h with h3 h4
    subst h3 h4
    rw [List.length_cons] at hw
    obtain ⟨⟨a, b⟩, q1, -⟩ := sgStep_many (s' := r.1) (o := r.2) hone.head hi (by omega)
      (fun _ _ _ _ _ _ _ _ h => by omega) h1
    obtain ⟨p2, q2⟩ := ih r.1 t.1 t.2 hone.tail a (by rcases b with b | ⟨b, -⟩ <;> omega)
      (by rcases b with b | ⟨b, -⟩ <;> omega) h2
    refine ⟨p2, fun y hy => ?_⟩
    rcases List.mem_append.1 hy with hy | hy
    · exact q1 y hy
    · exact q2 y hy

/-- Before session `id` has been given out nothing is sent, and afterwards requests for one NSAPI only. -/
theorem sgRun_before {I : List Nat} {id : Nat} {cfg : GmmCfg} {who : Nat → Ident} {ok : GmmOut → Bool} :
    ∀ (l : List SgEv) (s s' : SmGmm) (o : List SgOut), OneMs who I id l → (∀ N, ManyInv I id N s) → s.sm.nextSess ≤ id →
    s.sm.nextSess + l.length + 2 < 2 ^ 32 → sgRun cfg who ok s l = .ok (s', o) →
    ∃ N, ManyInv I id N s' ∧ ∀ y ∈ o, OnlyFor N y := by
  intro l
  induction l with
  | nil =>
    intro s s' o _ hi _ _ h
    injection h with h
    injection h with h3 h4
    subst h3 h4
    exact ⟨0, hi 0, fun y hy => by cases hy⟩
  | cons e l ih =>
    intro s s' o hone hi hle hw h
    obtain ⟨r, h1, h⟩ := bind_eq_ok.1 h
    obtain ⟨t, h2, h⟩ := bind_eq_ok.1 h
    injection h with h
    injection h with h3 h4
    subst h3 h4
    rw [List.length_cons] at hw
    by_cases hx : s.sm.nextSess = id ∧ ∃ q d c o rc, e = .actReq q d ∧ smStep s.sm (.actReq q) = .ok (c, o, rc) ∧
        c.nextSess ≠ s.sm.nextSess
    · obtain ⟨hid, q, d, c, o2, rc, rfl, hq, hc⟩ := hx
      obtain ⟨⟨a, b⟩, q1, q3⟩ := sgStep_many (N := q.nsapi) (s' := r.1) (o := r.2) hone.head (hi _) (by omega)
        (fun q' d' _ _ _ he _ _ _ => by injection he with he; rw [he]) h1
      rcases b with b | ⟨b, -⟩
      · exact absurd ((q3 q d c o2 rc rfl hq).symm.trans b) hc
      · obtain ⟨p2, q2⟩ := sgRun_after l r.1 t.1 t.2 hone.tail a (by omega) (by omega) h2
        refine ⟨_, p2, fun y hy => ?_⟩
        rcases List.mem_append.1 hy with hy | hy
        · exact q1 y hy
        · exact q2 y hy
    · have hs : ∀ N, (ManyInv I id N r.1 ∧ _) ∧ (∀ y ∈ r.2, OnlyFor N y) ∧ _ := fun N =>
        sgStep_many (N := N) (s' := r.1) (o := r.2) hone.head (hi N) (by omega)
          (fun q d c o rc he hq hc hid => absurd ⟨hid, q, d, c, o, rc, he, hq, hc⟩ hx) h1
      have hle' : r.1.sm.nextSess ≤ id ∧ r.1.sm.nextSess ≤ s.sm.nextSess + 1 := by
        rcases (hs 0).1.2 with b | ⟨b, hb⟩
        · omega
        · have : s.sm.nextSess ≠ id := fun hid => hx ⟨hid, hb⟩
          omega
      obtain ⟨N, p2, q2⟩ := ih r.1 t.1 t.2 hone.tail (fun N => (hs N).1.1) hle'.1 (by omega) h2
      refine ⟨N, p2, fun y hy => ?_⟩
      rcases List.mem_append.1 hy with hy | hy
      · exact (hs N).2.1 y hy
      · exact q2 y hy

theorem sg0_many (I : List Nat) (id N : Nat) : ManyInv I id N sg0 := by
  refine ⟨⟨smInit_inv, fun k i x hx => ?_⟩, fun g hg => (by cases hg), List.nodup_nil⟩
  simp [sg0, smInit, SmCtx.slot, freshMs] at hx

/-- In every history of a device with one mobile station, of whatever length and whatever the network and the
users do, all ACTIVATE PDP CONTEXT REQUEST messages are for one and the same NSAPI. -/
theorem c189_never (cfg : GmmCfg) (who : Nat → Ident) (ok : GmmOut → Bool) (I : List Nat) (id : Nat) (l : List SgEv)
    (s : SmGmm) (outs : List SgOut) (hone : OneMs who I id l) (hl : l.length + 2 < 2 ^ 32)
    (h : sgRun cfg who ok sg0 l = .ok (s, outs)) :
    ∃ N, ∀ i t b n, n < 256 → SgOut.gmm i (.llUnitdata t b) ∈ outs → IsActReq n b → n = N := by
  obtain ⟨N, -, h2⟩ := sgRun_before l sg0 s outs hone (sg0_many I id) (Nat.zero_le _)
    (by show 0 + l.length + 2 < 2 ^ 32; omega) h
  refine ⟨N % 256, fun i t b n hn hm hb => ?_⟩
  rcases h2 _ hm i t b rfl with h3 | ⟨a, r, h3, -⟩
  · exact absurd h3 (isActReq_own hb)
  · obtain ⟨a', r', rfl, -⟩ := hb
    injection h3 with _ h3
    injection h3 with _ h3
    injection h3 with h3 _
    have := congrArg UInt8.toNat h3
    rw [UInt8.toNat_ofNat', UInt8.toNat_ofNat'] at this
    omega

/-! ## What holds -/

/-- The user asks for a PDP context at a free NSAPI. -/
theorem sm_start_any {c : SmCtx} (hi : SmInv c) {r : ActReq} (h : ActReqOk r) (hf : c.slot r.msId r.nsapi = none) :
    ∃ c1 x w, smStep c (.actReq r) = .ok (c1, [.establishReq c.nextSess r.ptmsi r.ptmsiSig w], none) ∧
      (∀ k i, c1.slot k i = if k = r.msId ∧ i = r.nsapi then some x else c.slot k i) ∧ x.sess = c.nextSess ∧
      x.st = .pending ∧ x.nsapi = r.nsapi ∧ x.ti = 0 ∧ r.msId ∈ c1.order := by
  obtain ⟨⟨h1, h2⟩, h3, h4, h5⟩ := h
  have key : ∀ d : SmCtx, (∀ k i, d.slot k i = c.slot k i) → d.nextSess = c.nextSess → r.msId ∈ d.order →
      ∃ c1 x w, startAct d r = .ok (c1, [.establishReq c.nextSess r.ptmsi r.ptmsiSig w], none) ∧
      (∀ k i, c1.slot k i = if k = r.msId ∧ i = r.nsapi then some x else c.slot k i) ∧ x.sess = c.nextSess ∧
      x.st = .pending ∧ x.nsapi = r.nsapi ∧ x.ti = 0 ∧ r.msId ∈ c1.order := by
    intro d hd hn hm
    have hfree : (d.ms r.msId).pdp r.nsapi = none := (hd r.msId r.nsapi).trans hf
    refine ⟨SmCtx.put { (d.setMs r.msId { d.ms r.msId with ptmsi := r.ptmsi, ptmsiSig := r.ptmsiSig }) with
        nextSess := (d.nextSess + 1) % 2 ^ 32 } r.msId r.nsapi (some (toPending freshMs (newSme d.nextSess r)).1),
      (toPending freshMs (newSme d.nextSess r)).1, decide (r.ptmsi = Sm.reservedTmsi), ?_, ?_, hn, rfl, rfl, rfl, ?_⟩
    · unfold startAct
      rw [if_neg (by omega), if_neg (by rw [hfree]; exact Bool.false_ne_true)]
      unfold smDispatch smFsm
      simp only [newSme, toPending, establishOut, SmCtx.setMs, if_true, List.nil_append, hn]
    · intro k i
      rw [slot_put]
      split
      · rfl
      · rw [← hd k i, ← slot_setMs_same d r.msId { d.ms r.msId with ptmsi := r.ptmsi, ptmsiSig := r.ptmsiSig } rfl]
        rfl
    · exact hm
  show ∃ c1 x w, actReqStep c r = _ ∧ _
  unfold actReqStep
  rw [if_neg (by unfold qosMax; omega), if_neg (by unfold pcoCtxMax; omega), if_neg (by unfold pcoPrimMax; omega)]
  by_cases hm : c.hasMs r.msId = true
  · rw [if_pos hm, if_pos (by unfold nsapiValid; simp [h1, h2])]
    have hf' : (c.ms r.msId).pdp r.nsapi = none := hf
    rw [hf']
    exact key c (fun _ _ => rfl) rfl (by unfold SmCtx.hasMs at hm; simpa using hm)
  · rw [if_neg hm]
    refine key _ (fun k i => ?_) rfl List.mem_cons_self
    show (if k = r.msId then freshMs else c.ms k).pdp i = _
    by_cases hk : k = r.msId
    · rw [if_pos hk]
      cases hc : c.slot k i with
      | none => rfl
      | some y =>
        have := (hi.slot k i y hc).2.2.1
        rw [hk] at this
        exact absurd (by unfold SmCtx.hasMs; simpa using this) hm
    · rw [if_neg hk]; rfl

/-- A context is found by its session if no other one has it. -/
theorem bySess_only {c : SmCtx} {id n : Nat} {x : Sme} (hs : c.slot id n = some x) (hn : n < 16) (ho : id ∈ c.order)
    (hu : ∀ k i y, c.slot k i = some y → y.sess = x.sess → k = id ∧ i = n) : c.bySess x.sess = some (id, n) := by
  have hsome : (c.bySess x.sess).isSome = true := by
    unfold SmCtx.bySess
    rw [List.findSome?_isSome_iff]
    refine ⟨id, ho, ?_⟩
    rw [Option.isSome_map]
    unfold SmMs.slotOf
    rw [List.find?_isSome]
    refine ⟨n, by simpa using hn, ?_⟩
    have : (c.ms id).pdp n = some x := hs
    rw [this]; simp
  obtain ⟨⟨k, i⟩, hb⟩ := Option.isSome_iff_exists.1 hsome
  obtain ⟨-, -, y, h1, h2⟩ := bySess_some hb
  obtain ⟨rfl, rfl⟩ := hu k i y h1 h2
  exact hb

/-- **C189** (partial): it holds if the session the context gets has the number of the mobile station, as the first
one of mobile station 0 has. -/
theorem c189_partial (cfg : GmmCfg) (who : Nat → Ident) (ok : GmmOut → Bool) (I : List Nat) (id : Nat) (l : List SgEv)
    (s : SmGmm) (outs : List SgOut) (hone : OneMs who I id l) (hl : l.length + 2 < 2 ^ 32)
    (h : sgRun cfg who ok sg0 l = .ok (s, outs)) (r : ActReq) (draws : List Nat) (g : Gmme) (hr : ActReqOk r)
    (hid : r.msId = id) (hf : s.sm.slot id r.nsapi = none) (hg : g ∈ s.gmm.es) (hreg : g.st = .reg)
    (hs : s.sm.nextSess = id) :
    ∃ s' o, sgStep cfg who yes s (.actReq r draws) = .ok (s', o) ∧
      ∃ t b, SgOut.gmm I (.llUnitdata t b) ∈ o ∧ IsActReq r.nsapi b := by
  obtain ⟨N, hi, -⟩ := sgRun_before l sg0 s outs hone (sg0_many I id) (Nat.zero_le _)
    (by show 0 + l.length + 2 < 2 ^ 32; omega) h
  subst hid
  have hes := one_entity hi.imsi hi.nodup hg
  have himsi : g.imsi = I := hi.imsi g hg
  obtain ⟨c1, x, w, e1, e2, e3, e4, e5, e6, e7⟩ := sm_start_any hi.sm.sm hr hf
  obtain ⟨L, hL⟩ : ∃ L, s.gmm = L := ⟨_, rfl⟩
  rw [hL] at hes
  -- GMM confirms at once
  let g1 : Gmme := { g with sess := s.sm.nextSess, ptmsiSig := r.ptmsiSig }
  have hfc : findOrCreate L r.ptmsi (who r.msId).imsi draws = (L, 0) := by
    unfold findOrCreate
    split
    · rename_i k hk
      split at hk
      · unfold findPtmsi at hk
        rw [hes] at hk
        obtain ⟨hlt, -⟩ := List.findIdx?_eq_some_iff_getElem.1 hk
        simp only [List.length_cons, List.length_nil] at hlt
        have : k = 0 := by omega
        rw [this]
      · cases hk
    · have : findImsi L.es (who r.msId).imsi = some 0 := by
        unfold findImsi
        rw [hes, hone.who, ← himsi]
        simp
      rw [this]
  have hget : L.es[0]? = some g := by rw [hes]; rfl
  have hest : layerStep cfg (sgOk c1 yes) L
      (.establishReq s.sm.nextSess r.ptmsi (who r.msId).imsi draws (estPrm (who r.msId) r.ptmsiSig w)) =
      .ok ⟨⟨L.enabled, [g1]⟩, [⟨g.imsi, ⟨.establishReq s.sm.nextSess (estPrm (who r.msId) r.ptmsiSig w),
        [estAccOut g1], (submitOne (sgOk c1 yes) g1 [] (estAccOut g1)).rc⟩⟩],
        (submitOne (sgOk c1 yes) g1 [] (estAccOut g1)).rc⟩ := by
    simp only [layerStep]
    rw [hfc]
    unfold stepAt
    rw [hget]
    have hact : establishReqAct cfg (sgOk c1 yes) g s.sm.nextSess (estPrm (who r.msId) r.ptmsiSig w) =
        submitOne (sgOk c1 yes) g1 [] (estAccOut g1) := by
      unfold establishReqAct
      dsimp only
      rw [if_pos hreg]
      rfl
    simp only [gmmStep, hact, Res.bind_ok, hes]
    rfl
  -- SM sends
  have hb := bySess_only (c := c1) (id := r.msId) (n := r.nsapi) (x := x) (by rw [e2, if_pos ⟨rfl, rfl⟩])
    (by have := hr.nsapi; omega) e7 (by
      intro k i y hy hys
      rw [e2] at hy
      split at hy
      · assumption
      · have := (hi.sm.slot k i y hy).2.1
        omega)
  have hsm : ∀ p a t, ∃ c2, smStep c1 (.estAcc s.sm.nextSess p a t) = .ok (c2, [.unitdataReq r.msId (buildActReq x)], none) := by
    intro p a t
    refine ⟨(c1.setMs r.msId (withGmm (c1.ms r.msId) p a t)).put r.msId r.nsapi (some x), ?_⟩
    · show withSess c1 s.sm.nextSess _ = _
      unfold withSess
      rw [← e3, hb]
      dsimp only
      have : (c1.ms r.msId).pdp r.nsapi = some x := by
        have := e2 r.msId r.nsapi
        rw [if_pos ⟨rfl, rfl⟩] at this
        exact this
      rw [this]
      dsimp only
      unfold smDispatch smFsm
      rw [e4]
      rfl
  obtain ⟨c2, hc2⟩ := hsm g1.ptmsi g1.ptmsiSig g1.tlli
  have hdat : ∃ z, layerStep cfg (sgOk c2 yes) ⟨L.enabled, [g1]⟩ (.smUnitdataReq r.msId (buildActReq x)) = .ok z ∧
      sgSeen z = [(g.imsi, .llUnitdata g.tlli (buildActReq x))] := by
    have hfs : findSess [g1] r.msId = some 0 := by
      unfold findSess
      simp [g1, hs]
    refine ⟨⟨⟨L.enabled, [g1]⟩, [⟨g.imsi, ⟨.smUnitdataReq (buildActReq x), [.llUnitdata g.tlli (buildActReq x)], none⟩⟩], none⟩,
      ?_, rfl⟩
    simp only [layerStep]
    rw [hfs]
    rfl
  obtain ⟨z, hz1, hz2⟩ := hdat
  have hup : sgUp cfg yes ⟨c1, ⟨L.enabled, [g1]⟩⟩ (g.imsi, estAccOut g1) =
      .ok (⟨c2, z.layer⟩, [.gmm g.imsi (.llUnitdata g.tlli (buildActReq x))]) := by
    unfold sgUp
    have : smInOf (estAccOut g1) = some (.estAcc s.sm.nextSess g1.ptmsi g1.ptmsiSig g1.tlli) := rfl
    simp only [this]
    rw [hc2, Res.bind_ok]
    simp only [sgFold, sgData, hz1, Res.bind_ok, hz2]
    rfl
  refine ⟨⟨c2, z.layer⟩, [.gmm g.imsi (.llUnitdata g.tlli (buildActReq x))], ?_, g.tlli, buildActReq x, ?_, ?_⟩
  · show sgSm cfg yes (who r.msId) draws s (.actReq r) = _
    unfold sgSm
    rw [e1, Res.bind_ok]
    simp only [sgFold, sgDown, hL, hest, Res.bind_ok]
    have : sgSeen ⟨⟨L.enabled, [g1]⟩, [⟨g.imsi, ⟨.establishReq s.sm.nextSess (estPrm (who r.msId) r.ptmsiSig w),
        [estAccOut g1], (submitOne (sgOk c1 yes) g1 [] (estAccOut g1)).rc⟩⟩],
        (submitOne (sgOk c1 yes) g1 [] (estAccOut g1)).rc⟩ = [(g.imsi, estAccOut g1)] := rfl
    rw [this]
    simp only [sgFold, hup, Res.bind_ok]
    rfl
  · rw [himsi]; exact List.mem_singleton.2 rfl
  · rw [← e5]; exact isActReq_build e6

/-- Mobile station 0 has been attached by its user and asks for its first PDP context. -/
def attachedOnly : List SgEv :=
  [.gmm (.attachReq 0xc0000001 (sgWho 0).imsi [] ⟨1, false, 1, [], [], [0x62, 0xf2, 0x20, 0, 1, 0]⟩),
   .gmm (.rx (foreignTlli 0xc0000001) (acceptMsg 1 0x4a 4 [0x62, 0xf2, 0x20, 0, 1, 0] (some 0xc0000005)))]

example : ∃ s outs g, OneMs (fun _ => sgWho 0) (sgWho 0).imsi 0 attachedOnly ∧
    sgRun defaultCfg (fun _ => sgWho 0) yes sg0 attachedOnly = .ok (s, outs) ∧ ActReqOk (sgReq 0 5 0xc0000005) ∧
    s.sm.slot 0 5 = none ∧ g ∈ s.gmm.es ∧ g.st = .reg ∧ s.sm.nextSess = 0 := by
  have hr := sg_ran (cfg := defaultCfg) (l := attachedOnly) (by decide +kernel)
  have hw : sgRun defaultCfg (fun _ => sgWho 0) yes sg0 attachedOnly = sgRun defaultCfg sgWho yes sg0 attachedOnly := rfl
  have hg : (sgState (sgRun defaultCfg sgWho yes sg0 attachedOnly)).gmm.es.map (fun g => g.st) = [.reg] := by decide +kernel
  have hs : ((sgState (sgRun defaultCfg sgWho yes sg0 attachedOnly)).sm.slot 0 5).isNone = true := by decide +kernel
  obtain ⟨g, lst, hl, hg1, -⟩ := List.map_eq_cons_iff.1 hg
  refine ⟨_, _, g, ⟨fun _ => rfl, ?_, ?_, ?_⟩, hw.trans hr, ⟨by decide, by decide, by decide, by decide⟩,
    Option.isNone_iff_eq_none.1 hs, by rw [hl]; exact List.mem_cons_self, hg1, by decide +kernel⟩
  · intro p i d prm he
    simp only [attachedOnly, List.mem_cons, List.not_mem_nil, or_false, SgEv.gmm.injEq, reduceCtorEq] at he
    injection he with _ he
  · intro r d he
    simp [attachedOnly] at he
  · intro e he
    simp only [attachedOnly, List.mem_cons, List.not_mem_nil, or_false] at he
    rcases he with rfl | rfl <;> trivial

/-- One request does get out. -/
example : sendsAny (sgOuts (sgRun defaultCfg sgWho yes sg0 oneActive)) = true := by decide +kernel

end Verif.Props
