import Verif.Props.GmmAnswer
/-!
# C93–C95: detaching, switching off, disabling
-/
namespace Verif.Props
open Verif Verif.Gmm
open Verif.Spec.Gmm (Mark answered)

/-! ## C93: confirmations of detaches -/

/-- What the user sees of detaching: requests with an answer to come that are taken, and confirmations. -/
def detachMarks (o : GmmObs) : List Mark :=
  (match o.ev, o.rc with
    | .detachReq _ false, none => [.asked]
    | _, _ => []) ++
  o.out.filterMap fun x => match x with
    | .detachCnf _ => some (.told true)
    | _ => none

/-- The same of a history. -/
def detachMarksOf : List GmmObs → List Mark
  | [] => []
  | o :: t => detachMarks o ++ detachMarksOf t

/-- C93: detaching is confirmed only when it was asked for, and the mobile station is deregistered then. -/
def C93Statement : Prop :=
  ∀ cfg g t, GmmReach cfg g t →
    answered false (detachMarksOf t) ≠ none ∧
    ∀ ok ev r, gmmStep cfg ok g ev = .ok r → ∀ k, GmmOut.detachCnf k ∈ r.out → r.g.st = .dereg ∨ r.g.st = .null

/-- A DETACH ACCEPT nobody asked for is confirmed to the user, and the mobile station stays registered but
loses its TLLI. -/
theorem c93_violated : ¬ C93Statement := by
  intro h
  have h0 := reach0 (l := [⟨.attachReq prm0, yes⟩, ⟨.rx attAccMsg, yes⟩]) (by decide +kernel)
  have := (h _ _ _ h0).2 yes (.rx [0x08, 0x06, 0x00]) _ rfl 0 (by decide +kernel)
  exact absurd this (by decide +kernel)

theorem c93_violated_unasked :
    ∃ g t, GmmReach defaultCfg g t ∧ g.st = .reg ∧ g.tlli = tlliUnassigned ∧
      answered false (detachMarksOf t) = none :=
  ⟨_, _, reach0 (l := [⟨.attachReq prm0, yes⟩, ⟨.rx attAccMsg, yes⟩, ⟨.rx [0x08, 0x06, 0x00], yes⟩])
    (by decide +kernel), by decide +kernel, by decide +kernel, by decide +kernel⟩

/-- A ROUTING AREA UPDATE ACCEPT that comes while detaching takes the detach back. -/
theorem c93_violated_lost :
    ∃ g t, GmmReach defaultCfg g t ∧ g.st = .reg ∧ answered false (detachMarksOf t) = some true :=
  ⟨_, _, reach0 (l := [⟨.attachReq prm0, yes⟩, ⟨.rx attAccMsg, yes⟩, ⟨.detachReq 1 false, yes⟩,
      ⟨.rx [0x08, 0x09, 0x00, 0x2a, 0x32, 0xf4, 0x07, 0x00, 0x05, 0x00], yes⟩])
    (by decide +kernel), by decide +kernel, by decide +kernel⟩

/-- C93, what holds: the answer to a request, if all primitives are accepted, is one confirmation with the
type asked for, and the mobile station is deregistered and has given its TLLI back. -/
theorem c93_accept_partial {cfg : GmmCfg} {ok : GmmOut → Bool} {g : Gmme} {o : UInt8} {rest : Octets}
    {r : GmmStep} (hs : g.st = .deregInit) (hok : ∀ x, ok x = true)
    (h : gmmStep cfg ok g (.rx (0x08 :: 0x06 :: o :: rest)) = .ok r) :
    r.g.st = .dereg ∧ r.g.tlli = tlliUnassigned ∧ r.rc = none ∧
    r.out.take 2 = [.llgmmAssign g.tlli tlliUnassigned g.gea g.kc, .detachCnf g.detType] ∧
    (∀ x ∈ r.out.drop 2, x = .releaseInd g.sess) := by
  change rxDetachAcc cfg ok g (0x08 :: 0x06 :: o :: rest) = .ok r at h
  unfold rxDetachAcc at h
  rw [if_neg (by simp)] at h
  rw [show rd (0x08 :: 0x06 :: o :: rest) 2 = .ok o.toNat from rfl] at h
  simp only [Res.bind_ok] at h
  have hg : ∃ a b, (if o.toNat / 16 = 1 then readyStop g else g) = { g with run3314 := a, run3312 := b } := by
    split
    · unfold readyStop t3312Start
      split
      · split
        · exact ⟨false, g.run3312, rfl⟩
        · exact ⟨false, true, rfl⟩
      · exact ⟨g.run3314, g.run3312, rfl⟩
    · exact ⟨g.run3314, g.run3312, rfl⟩
  obtain ⟨a, b, e⟩ := hg
  rw [e] at h
  unfold submitThen at h
  rw [submit_ok (fun x _ => hok x)] at h
  dsimp only at h
  rw [if_pos rfl] at h
  injection h with h; subst h
  unfold dispatch
  simp only [gmmFsm, hs]
  refine ⟨by rfl, by rfl, by trivial, by rfl, ?_⟩
  intro x hx
  unfold toDereg at hx
  simp only [List.cons_append, List.nil_append, List.drop_succ_cons, List.drop_zero] at hx
  split at hx
  · rw [List.mem_singleton] at hx; exact hx
  · cases hx

/-- Such a mobile station is met. -/
example : ∃ g t, GmmReach defaultCfg g t ∧ g.st = .deregInit :=
  ⟨_, _, reach0 (l := [⟨.attachReq prm0, yes⟩, ⟨.rx attAccMsg, yes⟩, ⟨.detachReq 1 false, yes⟩])
    (by decide +kernel), by decide +kernel⟩

/-! ## C94: detaching ends -/

/-- An expiry. -/
def IsTimer : GmmEv → Prop
  | .fsmTimer | .t3314 | .t3312 | .t3316 => True
  | _ => False

/-- C94: without an answer from the network detaching ends after a bounded number of expiries. -/
def C94Statement : Prop :=
  ∀ cfg g t, GmmReach cfg g t → g.st = .deregInit →
    ∃ n, ∀ oks : List (GmmOut → Bool), n ≤ oks.length →
      ∀ g' t', gmmRun cfg g (expire oks) = .ok (g', t') → g'.st = .dereg

/-- Detaching never ends without an answer: no expiry of any timer makes a difference. -/
theorem c94_stuck {cfg : GmmCfg} (l : List GmmIn) (hl : ∀ i ∈ l, IsTimer i.ev) :
    ∀ (g g' : Gmme) (t : List GmmObs), g.st = .deregInit → gmmRun cfg g l = .ok (g', t) →
      g'.st = .deregInit ∧ ∀ o ∈ t, o.out = [] := by
  induction l with
  | nil =>
    intro g g' t hs h
    obtain ⟨rfl, rfl⟩ := gmmRun_nil h
    exact ⟨hs, fun o ho => by cases ho⟩
  | cons i l ih =>
    intro g g' t hs h
    obtain ⟨r, t', h1, h2, rfl⟩ := gmmRun_cons h
    have k : r.g.st = .deregInit ∧ r.out = [] := by
      have ht := hl i List.mem_cons_self
      cases e : i.ev <;> rw [e] at h1 ht <;> first | exact absurd ht id | skip
      · injection h1 with h1; subst h1
        unfold fsmTimeout
        rw [hs]
        exact ⟨hs, rfl⟩
      · injection h1 with h1; subst h1
        dsimp only
        refine ⟨?_, rfl⟩
        split
        · unfold t3312Start; split <;> exact hs
        · exact hs
      · injection h1 with h1; subst h1
        unfold periodicUpdate
        split
        · unfold dispatch
          simp only [gmmFsm, hs]
          exact ⟨trivial, trivial⟩
        · exact ⟨hs, rfl⟩
      · injection h1 with h1; subst h1
        dsimp only
        refine ⟨?_, rfl⟩
        split <;> exact hs
    obtain ⟨a, b⟩ := ih (fun j hj => hl j (List.mem_cons_of_mem _ hj)) r.g g' t' k.1 h2
    refine ⟨a, fun o ho => ?_⟩
    rcases List.mem_cons.1 ho with rfl | ho
    · exact k.2
    · exact b o ho

/-- The state of a mobile station that detaches, for the witness of `c94_violated`. -/
theorem c94_violated : ¬ C94Statement := by
  intro h
  obtain ⟨n, hn⟩ := h _ _ _ (reach0 (l := [⟨.attachReq prm0, yes⟩, ⟨.rx attAccMsg, yes⟩,
    ⟨.detachReq 1 false, yes⟩]) (by decide +kernel)) (by decide +kernel)
  have run : ∀ (k : Nat) (g : Gmme), g.st = .deregInit →
      ∃ t, gmmRun defaultCfg g (expire (List.replicate k yes)) = .ok (g, t) := by
    intro k
    induction k with
    | zero => intro g _; exact ⟨[], rfl⟩
    | succ k ih =>
      intro g hs
      obtain ⟨t, ht⟩ := ih g hs
      refine ⟨⟨.fsmTimer, [], none⟩ :: t, ?_⟩
      change (gmmStep defaultCfg yes g .fsmTimer >>= fun r => _) = _
      have : gmmStep defaultCfg yes g .fsmTimer = .ok ⟨g, [], none⟩ := by
        unfold gmmStep fsmTimeout
        rw [hs]
      rw [this]
      simp only [Res.bind_ok]
      change (gmmRun defaultCfg g (expire (List.replicate k yes)) >>= fun r => _) = _
      rw [ht]
      rfl
  obtain ⟨t, ht⟩ := run n _ (by decide +kernel : (finalOf (gmmRun defaultCfg ms0 [⟨.attachReq prm0, yes⟩,
    ⟨.rx attAccMsg, yes⟩, ⟨.detachReq 1 false, yes⟩])).st = .deregInit)
  have := hn (List.replicate n yes) (by simp) _ t ht
  exact absurd this (by decide +kernel)

/-- C94, what holds: switching off deregisters at once in every state, and so does a detach while the
attach procedure runs; DETACH REQUEST is sent. -/
theorem c94_poweroff_partial {cfg : GmmCfg} {ok : GmmOut → Bool} {g : Gmme} {type : Nat} {poweroff : Bool}
    {r : GmmStep} (hp : poweroff = true ∨ g.st = .regInit)
    (h : gmmStep cfg ok g (.detachReq type poweroff) = .ok r) :
    r.g.st = .dereg ∧ ∃ m, r.out.getLast? = some (.llUnitdata g.tlli m) ∧ m.take 2 = [0x08, 0x05] := by
  injection h with h; subst h
  unfold detachReqAct
  have hf : gmmFsm cfg ok { g with detType := type } (if poweroff then .detachPoweroff else .detachRequested) =
      some (toDereg { g with detType := type }) := by
    rcases hp with rfl | hs
    · unfold gmmFsm
      rw [if_pos rfl]
      cases g.st <;> rfl
    · unfold gmmFsm
      cases poweroff <;> simp [hs]
  unfold dispatch
  rw [hf]
  refine ⟨rfl, buildDetachReq type (if poweroff then 1 else 0) g.ptmsi, ?_, rfl⟩
  unfold submitOne
  exact List.getLast?_concat

/-! ## C95: disabling -/

/-- C95: a mobile station that is disabled leaves the network: disabling ends in GMM-NULL, and in GMM-NULL it
stays and sends nothing until it is enabled again. -/
def C95Statement : Prop :=
  ∀ cfg g t, GmmReach cfg g t →
    (∀ ok r, gmmStep cfg ok g (.enable false) = .ok r → r.g.st = .null) ∧
    (g.st = .null → ∀ ok ev r, ev ≠ .enable true → gmmStep cfg ok g ev = .ok r →
      r.g.st = .null ∧ ∀ tlli m, GmmOut.llUnitdata tlli m ∉ r.out)

/-- Disabling a mobile station that is registered has no effect. -/
theorem c95_violated : ¬ C95Statement := by
  intro h
  have h0 := reach0 (l := [⟨.attachReq prm0, yes⟩, ⟨.rx attAccMsg, yes⟩]) (by decide +kernel)
  have := (h _ _ _ h0).1 yes _ rfl
  exact absurd this (by decide +kernel)

/-- A disabled mobile station that is switched off ends up ready to attach, and has sent DETACH REQUEST. -/
theorem c95_violated_poweroff :
    ∃ g t, GmmReach defaultCfg g t ∧ g.st = .null ∧ ∃ r, gmmStep defaultCfg yes g (.detachReq 1 true) = .ok r ∧
      r.g.st = .dereg ∧ ∃ tlli m, r.out = [.llUnitdata tlli m] :=
  ⟨_, _, reach0 (l := [⟨.enable false, yes⟩]) (by decide +kernel), by decide +kernel, _, rfl, by decide +kernel,
    _, _, rfl⟩

/-- C95, what holds: GMM-NULL is left only when the mobile station is enabled or switched off, and a mobile
station that is deregistered can be disabled. -/
theorem c95_null_partial {cfg : GmmCfg} {ok : GmmOut → Bool} {g : Gmme} {ev : GmmEv} {r : GmmStep}
    (h : gmmStep cfg ok g ev = .ok r) :
    (g.st = .null → r.g.st ≠ .null → ev = .enable true ∨ ∃ k, ev = .detachReq k true) ∧
    (g.st = .dereg → ev = .enable false → r.g.st = .null) := by
  constructor
  · intro hs hn
    have key : ∀ (ok : GmmOut → Bool) (x : Gmme) (pre : List GmmOut) (fe : FsmEv), x.st = .null →
        fe ≠ .enable → fe ≠ .detachPoweroff → (dispatch cfg ok x pre fe).g.st = .null := by
      intro ok x pre fe hx h1 h2
      unfold dispatch gmmFsm
      rw [hx]
      cases fe <;> first | exact absurd rfl h1 | exact absurd rfl h2 | exact hx
    have same : ∀ x, Same g x → x.st = .null := fun x s => s.st.trans hs
    cases ev with
    | enable on =>
      cases on with
      | true => exact .inl rfl
      | false =>
        injection h with h; subst h
        exact absurd (key ok g [] .disable hs (by decide) (by decide)) hn
    | attachReq p =>
      injection h with h; subst h
      refine absurd ?_ hn
      exact key ok _ [] .attachRequested hs (by decide) (by decide)
    | detachReq k p =>
      cases p with
      | true => exact .inr ⟨k, rfl⟩
      | false =>
        injection h with h; subst h
        exact absurd (key ok { g with detType := k } [] .detachRequested hs (by decide) (by decide)) hn
    | simAuthRsp a k rnd s kc =>
      injection h with h; subst h
      refine absurd ?_ hn
      unfold simAuthRspAct
      split
      · exact same _ (Same.trans (Same.trans (by same : Same g { g with kc := kc }) (t3316Start_same _ _))
          authFinish_same)
      · exact hs
    | establishReq s p =>
      injection h with h; subst h
      refine absurd ?_ hn
      unfold establishReqAct
      dsimp only
      split
      · exact hs
      · exact key ok _ [] .attachRequested hs (by decide) (by decide)
    | smUnitdataReq b => injection h with h; subst h; exact absurd hs hn
    | pageInd => injection h with h; subst h; exact absurd (same _ (readyStart_same g)) hn
    | llcTransmitted => injection h with h; subst h; exact absurd (same _ (readyStart_same g)) hn
    | rx b =>
      refine absurd ?_ hn
      cases rx_shape h with
      | quiet h1 _ => exact same _ h1
      | event g1 pre fe h1 _ hf h2 _ =>
        rw [h2]
        refine key ok g1 pre fe (same _ h1) ?_ ?_ <;> (intro e; subst e; exact hf)
    | fsmTimer =>
      injection h with h; subst h
      refine absurd ?_ hn
      unfold fsmTimeout
      rw [hs]
      exact hs
    | t3314 =>
      injection h with h; subst h
      refine absurd ?_ hn
      dsimp only
      split
      · exact same _ (Same.trans (by same : Same g { g with run3314 := false }) (t3312Start_same _))
      · exact hs
    | t3312 =>
      injection h with h; subst h
      refine absurd ?_ hn
      unfold periodicUpdate
      split
      · exact key ok { g with run3312 := false, rauType := 3 } [] .rauRequested hs (by decide) (by decide)
      · exact hs
    | t3316 =>
      injection h with h; subst h
      refine absurd ?_ hn
      dsimp only
      split <;> exact hs
  · rintro hs rfl
    injection h with h; subst h
    unfold dispatch gmmFsm
    rw [hs]
    rfl

end Verif.Props
