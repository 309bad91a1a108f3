import Verif.Props.GmmLink
/-!
# C105: session management is told when the registration it relies on is gone
-/
namespace Verif.Props
open Verif Verif.Gmm Verif.Gsm

/-! ## Specification -/

/-- The sessions released by GMMSM-RELEASE.ind among the primitives handed out. -/
def released : List GmmOut → List Nat
  | [] => []
  | .releaseInd s :: l => s :: released l
  | _ :: l => released l

/-- The session management entity after an event: GMMSM-ESTABLISH.req names it. -/
def sessionStep (s : Nat) : GmmEv → Nat
  | .establishReq s' _ => s'
  | _ => s

/-- The session management entity that last asked for a registration. -/
def sessionOf (t : List GmmObs) : Nat := t.foldl (fun s o => sessionStep s o.ev) sessUnassigned

/-- Registered, or about to be, or about to give it up. -/
def Engaged (s : GmmSt) : Prop := s ≠ .null ∧ s ≠ .dereg

instance (s : GmmSt) : Decidable (Engaged s) := by unfold Engaged; infer_instance

/-- **C105**, full statement.  In every history, an event makes the mobile station release the session
(once) exactly if it takes it from an engaged state to the deregistered one and there is a session. -/
def C105Statement : Prop :=
  ∀ cfg g t, GmmReach cfg g t → ∀ ok ev r, gmmStep cfg ok g ev = .ok r →
    released r.out = if Engaged g.st ∧ r.g.st = .dereg ∧ sessionOf t ≠ sessUnassigned then [sessionOf t] else []

/-- **C105 is violated**: switching off releases the session of a mobile station that is not registered,
after it has been released already. -/
theorem c105_violated : ¬ C105Statement := by
  intro h
  have h0 := reach0 (l := [⟨.establishReq 7 prm0, yes⟩, ⟨.rx [0x08, 0x04, 0x07], yes⟩]) (by decide +kernel)
  have := h _ _ _ h0 yes (.detachReq 1 true) _ rfl
  exact absurd this (by decide +kernel)

/-! ## What holds -/

theorem released_append (a b : List GmmOut) : released (a ++ b) = released a ++ released b := by
  induction a with
  | nil => rfl
  | cons o a ih => cases o <;> simp [released, ih]

/-- Not a release. -/
def NoRel : GmmOut → Prop
  | .releaseInd .. => False
  | _ => True

theorem released_noRel {l : List GmmOut} (h : ∀ o ∈ l, NoRel o) : released l = [] := by
  induction l with
  | nil => rfl
  | cons o l ih =>
    have h1 := h o List.mem_cons_self
    have h2 := ih fun o ho => h o (List.mem_cons_of_mem _ ho)
    cases o <;> first | exact h2 | exact absurd h1 (by simp [NoRel])

theorem released_plain {l : List GmmOut} (h : ∀ o ∈ l, Plain o) : released l = [] :=
  released_noRel fun o ho => by
    have := h o ho
    cases o <;> first | trivial | exact absurd this (by simp [Plain])

/-- What is released by going from one state to the other. -/
def dueRelease (g : Gmme) (st : GmmSt) : List Nat :=
  if Engaged g.st ∧ st = .dereg ∧ g.sess ≠ sessUnassigned then [g.sess] else []

theorem dueRelease_same (g : Gmme) : dueRelease g g.st = [] := by
  unfold dueRelease Engaged
  rw [if_neg]
  rintro ⟨⟨_, h⟩, h', _⟩
  exact h h'

theorem dueRelease_other {g : Gmme} {s : GmmSt} (h : s ≠ .dereg) : dueRelease g s = [] := by
  unfold dueRelease
  rw [if_neg]
  rintro ⟨_, h', _⟩
  exact h h'

theorem toDereg_released {g : Gmme} (h : g.st ≠ .dereg) : released (toDereg g).2 = dueRelease g .dereg := by
  unfold toDereg dueRelease Engaged
  dsimp only
  by_cases h1 : g.st = .null
  · rw [if_neg (by rintro ⟨a, _⟩; exact a h1), if_neg (by rintro ⟨⟨a, _⟩, _⟩; exact a h1)]; rfl
  · by_cases h2 : g.sess = sessUnassigned
    · rw [if_neg (by rintro ⟨_, a⟩; exact a h2), if_neg (by rintro ⟨_, _, a⟩; exact a h2)]; rfl
    · rw [if_pos ⟨h1, h2⟩, if_pos ⟨⟨h1, h⟩, rfl, h2⟩]; rfl

theorem attachFailed_released {ok : GmmOut → Bool} {g : Gmme} {c : Nat} (h : g.st ≠ .dereg) :
    released (attachFailed ok g c).2 = dueRelease g .dereg := by
  unfold attachFailed
  dsimp only
  rw [released_append, toDereg_released h, released_noRel, List.append_nil]
  intro o ho
  have ho := submit_sub ho
  rw [List.mem_append] at ho
  rcases ho with ho | ho <;> split at ho
  · rw [List.mem_singleton] at ho; subst ho; trivial
  · cases ho
  · rw [List.mem_singleton] at ho; subst ho; unfold estRejOut; split <;> trivial
  · cases ho

theorem attachDone_released {ok : GmmOut → Bool} {g : Gmme} : released (attachDone ok g).2 = [] := by
  unfold attachDone
  dsimp only
  refine released_noRel fun o ho => ?_
  have ho := submit_sub ho
  rw [List.mem_append] at ho
  rcases ho with ho | ho <;> split at ho
  · rw [List.mem_singleton] at ho; subst ho; trivial
  · cases ho
  · rw [List.mem_singleton] at ho; subst ho; trivial
  · cases ho

theorem txAttReq_released (cfg : GmmCfg) (g : Gmme) : released (txAttReq cfg g).toList = [] := by
  unfold txAttReq
  split <;> rfl

/-- What an event of the state machine releases. -/
theorem fsm_released {cfg : GmmCfg} {ok : GmmOut → Bool} {g : Gmme} {fe : FsmEv} {x : Gmme × List GmmOut}
    (hn : ¬ (fe = .detachPoweroff ∧ g.st = .dereg)) (h : gmmFsm cfg ok g fe = some x) :
    released x.2 = dueRelease g x.1.st ∧ x.1.sess = g.sess := by
  unfold gmmFsm at h
  split at h <;> first | cases h | (injection h with h; subst h)
  -- null, enable
  · rename_i hs; exact ⟨toDereg_released (by rw [hs]; decide), rfl⟩
  -- dereg, disable
  · exact ⟨(dueRelease_other (by intro h; cases h)).symm, rfl⟩
  -- dereg, attachRequested
  · rename_i hs
    unfold startAttach
    split
    · exact ⟨(dueRelease_same g).symm, rfl⟩
    · rename_i o ho
      have e := txAttReq_released cfg g
      rw [ho] at e
      dsimp only
      split
      · exact ⟨e.trans (dueRelease_other (by intro h; cases h)).symm, rfl⟩
      · exact ⟨e.trans (dueRelease_same g).symm, rfl⟩
  -- regInit
  · exact ⟨(txAttReq_released cfg g).trans (dueRelease_same g).symm, rfl⟩
  · rename_i hs; exact ⟨attachFailed_released (by rw [hs]; decide), rfl⟩
  · rename_i hs; exact ⟨attachFailed_released (by rw [hs]; decide), rfl⟩
  · exact ⟨attachDone_released.trans (dueRelease_other (by intro h; cases h)).symm, rfl⟩
  · rename_i hs; exact ⟨toDereg_released (by rw [hs]; decide), rfl⟩
  -- reg, rauRequested
  · rename_i hs
    unfold startRau
    dsimp only
    split
    · exact ⟨(dueRelease_other (by intro h; cases h)).symm, rfl⟩
    · exact ⟨(dueRelease_same g).symm, rfl⟩
  · exact ⟨(dueRelease_other (by intro h; cases h)).symm, rfl⟩
  -- deregInit
  · rename_i hs; exact ⟨toDereg_released (by rw [hs]; decide), rfl⟩
  · rename_i hs; exact ⟨toDereg_released (by rw [hs]; decide), rfl⟩
  · exact ⟨(dueRelease_other (by intro h; cases h)).symm, rfl⟩
  -- rauInit
  · exact ⟨(dueRelease_other (by intro h; cases h)).symm, rfl⟩
  · rename_i hs
    unfold rauRejectedAct
    split
    · exact ⟨(dueRelease_other (by intro h; cases h)).symm, rfl⟩
    · exact ⟨toDereg_released (by rw [hs]; decide), rfl⟩
  · exact ⟨(dueRelease_other (by intro h; cases h)).symm, rfl⟩
  -- power off
  · exact ⟨toDereg_released (fun h => hn ⟨rfl, h⟩), rfl⟩

theorem dispatch_released {cfg : GmmCfg} {ok : GmmOut → Bool} {g : Gmme} {pre : List GmmOut} {fe : FsmEv}
    (hp : released pre = []) (hn : ¬ (fe = .detachPoweroff ∧ g.st = .dereg)) :
    released (dispatch cfg ok g pre fe).out = dueRelease g (dispatch cfg ok g pre fe).g.st ∧
      (dispatch cfg ok g pre fe).g.sess = g.sess := by
  unfold dispatch
  split
  · rename_i g' out h
    dsimp only
    rw [released_append, hp]
    exact fsm_released hn h
  · exact ⟨hp.trans (dueRelease_same g).symm, rfl⟩

theorem dispatch_sess {cfg : GmmCfg} {ok : GmmOut → Bool} {g : Gmme} {pre : List GmmOut} {fe : FsmEv} :
    (dispatch cfg ok g pre fe).g.sess = g.sess := by
  by_cases hn : fe = .detachPoweroff ∧ g.st = .dereg
  · unfold dispatch gmmFsm; rw [hn.1, hn.2]; rfl
  · unfold dispatch
    split
    · rename_i h; exact (fsm_released hn h).2
    · rfl

/-- The release an event brings, when the session is the one after the event. -/
theorem dueRelease_congr {g h : Gmme} {s : GmmSt} (h1 : h.st = g.st) (h2 : h.sess = g.sess) :
    dueRelease h s = dueRelease g s := by unfold dueRelease; rw [h1, h2]

theorem readyStart_sess (g : Gmme) : (readyStart g).sess = g.sess ∧ (readyStart g).st = g.st := by
  unfold readyStart; split <;> exact ⟨rfl, rfl⟩

theorem t3312Start_sess (g : Gmme) : (t3312Start g).sess = g.sess ∧ (t3312Start g).st = g.st := by
  unfold t3312Start; split <;> exact ⟨rfl, rfl⟩

theorem fsmTimeout_shape (cfg : GmmCfg) (ok : GmmOut → Bool) (g : Gmme) :
    (∃ z : Gmme, z.st = g.st ∧ z.sess = g.sess ∧ fsmTimeout cfg ok g = dispatch cfg ok z [] .lowLvlFail) ∨
    ((fsmTimeout cfg ok g).g.st = g.st ∧ (fsmTimeout cfg ok g).g.sess = g.sess ∧
      released (fsmTimeout cfg ok g).out = []) := by
  unfold fsmTimeout
  split
  · split
    · exact Or.inl ⟨_, by rfl, by rfl, rfl⟩
    · exact Or.inr ⟨rfl, rfl, txAttReq_released _ _⟩
  · split
    · exact Or.inl ⟨_, by rfl, by rfl, rfl⟩
    · exact Or.inr ⟨rfl, rfl, rfl⟩
  · exact Or.inr ⟨rfl, rfl, rfl⟩

theorem step_released {cfg : GmmCfg} {ok : GmmOut → Bool} {g : Gmme} {ev : GmmEv} {r : GmmStep}
    (h : gmmStep cfg ok g ev = .ok r) :
    ((¬ ∃ t, ev = .detachReq t true ∧ g.st = .dereg) → released r.out = dueRelease g r.g.st) ∧
      r.g.sess = sessionStep g.sess ev := by
  cases ev with
  | enable on =>
    injection h with h; subst h
    have := dispatch_released (cfg := cfg) (ok := ok) (g := g) (pre := []) (fe := if on then .enable else .disable) rfl
      (by rintro ⟨a, _⟩; split at a <;> cases a)
    exact ⟨fun _ => this.1, this.2⟩
  | attachReq p =>
    injection h with h; subst h
    unfold attachReqAct requestAttach
    exact ⟨fun _ => (dispatch_released rfl (by rintro ⟨a, _⟩; cases a)).1.trans (dueRelease_congr rfl rfl), dispatch_sess⟩
  | detachReq t p =>
    injection h with h; subst h
    unfold detachReqAct submitOne
    dsimp only
    refine ⟨fun hn => ?_, dispatch_sess⟩
    rw [released_append]
    refine (List.append_nil _).trans ((dispatch_released rfl ?_).1.trans (dueRelease_congr rfl rfl))
    rintro ⟨a, b⟩
    split at a
    · rename_i hp; exact hn ⟨t, by rw [hp], b⟩
    · cases a
  | simAuthRsp a k rnd s kc =>
    injection h with h; subst h
    unfold simAuthRspAct
    split
    · have hs := authFinish_same (ok := ok) (g := t3316Start cfg { g with kc := kc }) (sres := some s)
      have e : (t3316Start cfg { g with kc := kc }).st = g.st ∧ (t3316Start cfg { g with kc := kc }).sess = g.sess := by
        unfold t3316Start; split <;> exact ⟨rfl, rfl⟩
      refine ⟨fun _ => ?_, hs.sess.trans e.2⟩
      rw [released_plain authFinish_plain, hs.st, e.1, dueRelease_same]
    · exact ⟨fun _ => (dueRelease_same g).symm, rfl⟩
  | establishReq s p =>
    injection h with h; subst h
    unfold establishReqAct
    dsimp only
    split
    · exact ⟨fun _ => (dueRelease_same g).symm, rfl⟩
    · unfold requestAttach
      refine ⟨fun _ => ?_, dispatch_sess⟩
      have hd : ∀ (z : Gmme), (dispatch cfg ok z [] .attachRequested).g.st ≠ .dereg ∨
          (dispatch cfg ok z [] .attachRequested).g.st = z.st := by
        intro z
        cases hz : z.st <;> simp only [dispatch, gmmFsm, hz]
        all_goals first
          | exact Or.inr hz
          | exact Or.inr trivial
          | skip
        all_goals unfold startAttach
        split
        · exact Or.inr hz
        · dsimp only
          split
          · exact Or.inl (by intro h; cases h)
          · exact Or.inr hz
      have key : ∀ z : Gmme, z.st = g.st → released (dispatch cfg ok z [] .attachRequested).out =
          dueRelease g (dispatch cfg ok z [] .attachRequested).g.st := by
        intro z hz
        refine (dispatch_released rfl (by rintro ⟨a, _⟩; cases a)).1.trans ?_
        rcases hd z with e | e
        · exact (dueRelease_other e).trans (dueRelease_other e).symm
        · rw [e, dueRelease_same, hz, dueRelease_same]
      exact key _ (by rfl)
  | smUnitdataReq b => injection h with h; subst h; exact ⟨fun _ => (dueRelease_same g).symm, rfl⟩
  | pageInd =>
    injection h with h; subst h
    refine ⟨fun _ => ?_, (readyStart_sess g).1⟩
    show [] = dueRelease g (readyStart g).st
    rw [(readyStart_sess g).2, dueRelease_same]
  | llcTransmitted =>
    injection h with h; subst h
    refine ⟨fun _ => ?_, (readyStart_sess g).1⟩
    show [] = dueRelease g (readyStart g).st
    rw [(readyStart_sess g).2, dueRelease_same]
  | rx b =>
    cases rx_shape h with
    | quiet hs ho => exact ⟨fun _ => by rw [released_plain ho, hs.st, dueRelease_same], hs.sess⟩
    | event g1 pre fe hs ho hf hg hr =>
      have hn : fe ≠ .detachPoweroff := by intro e; subst e; exact hf
      refine ⟨fun _ => ?_, ?_⟩
      · rw [hr, hg]
        exact (dispatch_released (released_plain ho) (fun a => hn a.1)).1.trans (dueRelease_congr hs.st hs.sess)
      · rw [hg]; exact dispatch_sess.trans hs.sess
  | fsmTimer =>
    injection h with h; subst h
    rcases fsmTimeout_shape cfg ok g with ⟨z, h1, h2, e⟩ | ⟨h1, h2, e⟩
    · rw [e]
      exact ⟨fun _ => (dispatch_released rfl (by rintro ⟨a, _⟩; cases a)).1.trans (dueRelease_congr h1 h2),
        dispatch_sess.trans h2⟩
    · exact ⟨fun _ => by rw [e, h1, dueRelease_same], h2⟩
  | t3314 =>
    injection h with h; subst h
    dsimp only
    split
    · obtain ⟨a, b⟩ := t3312Start_sess { g with run3314 := false }
      exact ⟨fun _ => by rw [b]; exact (dueRelease_same g).symm, a⟩
    · exact ⟨fun _ => (dueRelease_same g).symm, rfl⟩
  | t3312 =>
    injection h with h; subst h
    unfold periodicUpdate
    split
    · exact ⟨fun _ => (dispatch_released rfl (by rintro ⟨a, _⟩; cases a)).1.trans (dueRelease_congr rfl rfl), dispatch_sess⟩
    · exact ⟨fun _ => (dueRelease_same g).symm, rfl⟩
  | t3316 =>
    injection h with h; subst h
    dsimp only
    split
    · exact ⟨fun _ => (dueRelease_same g).symm, rfl⟩
    · exact ⟨fun _ => (dueRelease_same g).symm, rfl⟩

theorem run_session {cfg : GmmCfg} : ∀ (l : List GmmIn) (g g' : Gmme) (t : List GmmObs),
    gmmRun cfg g l = .ok (g', t) →
    g'.sess = t.foldl (fun s o => sessionStep s o.ev) g.sess := by
  intro l
  induction l with
  | nil => intro g g' t h; obtain ⟨rfl, rfl⟩ := gmmRun_nil h; rfl
  | cons i l ih =>
    intro g g' t h
    obtain ⟨r, t', h1, h2, rfl⟩ := gmmRun_cons h
    rw [List.foldl_cons, ih _ _ _ h2, (step_released h1).2]

/-- **C105** (partial): it holds in every history for every event but switching off a mobile station that
is deregistered already. -/
theorem c105_partial {cfg : GmmCfg} {g : Gmme} {t : List GmmObs} (h : GmmReach cfg g t) (ok : GmmOut → Bool)
    (ev : GmmEv) (r : GmmStep) (hs : gmmStep cfg ok g ev = .ok r)
    (hn : ¬ ∃ ty, ev = .detachReq ty true ∧ g.st = .dereg) :
    released r.out =
      if Engaged g.st ∧ r.g.st = .dereg ∧ sessionOf t ≠ sessUnassigned then [sessionOf t] else [] := by
  obtain ⟨en, p, rnd, imsi, l, h⟩ := h
  have e : g.sess = sessionOf t := by
    rw [run_session l _ _ _ h]; rfl
  rw [(step_released hs).1 hn]
  unfold dueRelease
  rw [e]

/-- A session that is released: asked for, accepted, and the mobile station switched off. -/
example : ∃ g t, GmmReach defaultCfg g t ∧ g.st = .reg ∧ sessionOf t = 7 ∧
    ∃ r, gmmStep defaultCfg yes g (.detachReq 1 true) = .ok r ∧ released r.out = [7] :=
  ⟨_, _, reach0 (l := [⟨.establishReq 7 prm0, yes⟩, ⟨.rx attAccMsg, yes⟩]) (by decide +kernel), by decide +kernel,
    by decide +kernel, _, rfl, by decide +kernel⟩

end Verif.Props
