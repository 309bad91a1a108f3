import Verif.Props.GmmLayer
/-!
# C161: GPRS can be switched on and off
-/
namespace Verif.Props
open Verif Verif.Gmm

/-- Requests for registration and timers. -/
def OnItsOwn : LayerEv → Prop
  | .attachReq .. => True
  | .establishReq .. => True
  | .fsmTimer _ => True
  | .t3314 _ => True
  | .t3312 _ => True
  | .t3316 _ => True
  | _ => False

/-- **C161**, full statement.  In every history: while GPRS is enabled, no mobile station is in GMM-NULL;
while it is disabled, requests for registration and timers lead to nothing. -/
def C161Statement : Prop :=
  ∀ cfg L t, LayerReach cfg L t →
    (L.enabled = true → ∀ g ∈ L.es, g.st ≠ .null) ∧
    (L.enabled = false → ∀ ok ev r, OnItsOwn ev → layerStep cfg ok L ev = .ok r → ∀ o ∈ r.seen, o.obs.out = [])

/-! ## The state of an entity -/

theorem t3312Start_st (g : Gmme) : (t3312Start g).st = g.st := by
  unfold t3312Start; split <;> rfl

theorem readyStop_st (g : Gmme) : (readyStop g).st = g.st := by
  unfold readyStop
  split
  · rw [t3312Start_st]
  · rfl

/-- Only the state machine changes the state. -/
theorem st_closed (cfg : GmmCfg) (Q : GmmSt → Prop) (F : FsmEv → Prop)
    (hp : ∀ ev, ev ≠ .enable → ev ≠ .disable → ev ≠ .detachPoweroff → F ev)
    (hf : ∀ ok g ev x, F ev → Q g.st → gmmFsm cfg ok g ev = some x → Q x.1.st) :
    Closed cfg (fun g => Q g.st) True F where
  sig g n p := p
  ready g n p := by
    unfold readyNegotiated
    split
    · rw [t3312Start_st, readyStop_st]; exact p
    · exact p
  ptmsi g q p := p
  ra g y p := p
  fixed g t f ra p := by
    unfold applyFixed
    have h3 : (if tmrAssigned t = 0 then t3312Stop { g with t3312s := 0 }
        else { g with t3312s := tmrAssigned t }).st = g.st := by split <;> rfl
    generalize (if tmrAssigned t = 0 then t3312Stop { g with t3312s := 0 }
        else { g with t3312s := tmrAssigned t }) = y at h3 ⊢
    have h4 : (if f then readyStop y else y).st = y.st := by
      split
      · exact readyStop_st y
      · rfl
    generalize (if f then readyStop y else y) = z at h4 ⊢
    show Q z.st
    rw [h4, h3]; exact p
  npdu g b v p := p
  pdp g s p := p
  standby g p := by rw [readyStop_st]; exact p
  sends g p := by unfold readyStart; split <;> exact p
  detached g p := p
  auth g _ _ _ _ _ p _ _ := p
  noAuth g p _ := p
  kc g y p := p
  stop3316 g p := p
  start3316 g p := by unfold t3316Start; split <;> exact p
  prm g q p := p
  att g t w e i p := p
  det g t p := p
  sess g s p := p
  attCount g n p := p
  rauCount g n p := p
  exp3314 g p _ := by rw [t3312Start_st]; exact p
  exp3312 g p := p
  exp3316 g p _ := p
  plain := hp
  fsm := hf

/-- Nothing but disabling GPRS leads to GMM-NULL. -/
theorem awake_closed (cfg : GmmCfg) : Closed cfg (fun g => g.st ≠ .null) True (fun ev => ev ≠ .disable) :=
  st_closed cfg (fun s => s ≠ .null) _ (fun _ _ h _ => h) (by
    intro ok g ev x hev hs h
    have k1 : (startAttach cfg ok g).1.st ≠ .null := by
      unfold startAttach
      split
      · exact hs
      · dsimp only
        split <;> first | exact hs | exact fun h => (by cases h)
    have k2 : (startRau cfg ok g).1.st ≠ .null := by
      unfold startRau
      dsimp only
      split <;> first | exact hs | exact fun h => (by cases h)
    have k3 : ∀ c, (rauRejectedAct g c).1.st ≠ .null := by
      intro c; unfold rauRejectedAct
      split
      · exact fun h => (by cases h)
      · exact fun h => (by cases h)
    unfold gmmFsm at h
    split at h <;> first
      | (cases h; first | exact absurd rfl hev | exact k1 | exact k2 | exact k3 _ | exact hs | exact fun h => (by cases h))
      | cases h)

/-- Nothing but enabling GPRS and a detach for power-off leads out of it. -/
theorem asleep_closed (cfg : GmmCfg) :
    Closed cfg (fun g => g.st = .null) True (fun ev => ev ≠ .enable ∧ ev ≠ .detachPoweroff) :=
  st_closed cfg (fun s => s = .null) _ (fun _ h _ h' => ⟨h, h'⟩) (by
    intro ok g ev x hev hs h
    unfold gmmFsm at h
    rw [hs] at h
    cases ev <;> first | exact absurd rfl hev.1 | exact absurd rfl hev.2 | cases h)

/-! ## While GPRS is enabled -/

theorem layerStep_awake {cfg : GmmCfg} {ok : GmmOut → Bool} {L : GmmLayer} {ev : LayerEv} {r : LayerStep}
    (hi : L.enabled = true → ∀ g ∈ L.es, g.st ≠ .null) (h : layerStep cfg ok L ev = .ok r) :
    r.layer.enabled = true → ∀ g ∈ r.layer.es, g.st ≠ .null := by
  have hat : ∀ (L : GmmLayer) (k : Nat) (ev : GmmEv), (L.enabled = true → ∀ g ∈ L.es, g.st ≠ .null) →
      (∀ on, ev ≠ .enable on) → stepAt cfg ok L k ev = .ok r →
      r.layer.enabled = true → ∀ g ∈ r.layer.es, g.st ≠ .null := by
    intro L k ev hi hev h
    unfold stepAt at h
    split at h
    · rename_i g hg
      obtain ⟨s, hs, h⟩ := bind_eq_ok.1 h
      injection h with h; subst h
      intro he x hx
      rcases List.mem_or_eq_of_mem_set hx with hx | rfl
      · exact hi he x hx
      · exact (awake_closed cfg).stepF g ok ev s (hi he g (List.mem_of_getElem? hg)) (fun _ => trivial)
          (fun on e => absurd e (hev on)) (fun t q _ => by cases q <;> exact fun h => (by cases h)) hs
    · injection h with h; subst h; exact hi
  have hfo : ∀ (k : Option Nat) (e : Errno) (ev : GmmEv), (∀ on, ev ≠ .enable on) →
      stepFound cfg ok L k e ev = .ok r → r.layer.enabled = true → ∀ g ∈ r.layer.es, g.st ≠ .null := by
    intro k e ev hev h
    unfold stepFound at h
    split at h
    · exact hat _ _ _ hi hev h
    · injection h with h; subst h; exact hi
  have hcr : ∀ p i d, (findOrCreate L p i d).1.enabled = true → ∀ g ∈ (findOrCreate L p i d).1.es, g.st ≠ .null := by
    intro p i d
    unfold findOrCreate
    split
    · exact hi
    · split
      · exact hi
      · intro he g hg
        change L.enabled = true at he
        rcases List.mem_cons.1 hg with rfl | hg
        · show (if L.enabled = true then GmmSt.dereg else .null) ≠ .null
          rw [if_pos he]; exact fun h => (by cases h)
        · exact hi he g hg
  have nev : ∀ {e : GmmEv}, (match e with | .enable _ => False | _ => True) → ∀ on, e ≠ .enable on := by
    intro e h on he
    subst he; exact h
  cases ev with
  | enable on =>
    simp only [layerStep] at h
    split at h
    · injection h with h; subst h; exact hi
    · injection h with h; subst h
      intro he
      change on = true at he
      subst he
      have : ∀ es : List Gmme, ∀ g ∈ (enableAll cfg ok true es).1, g.st ≠ .null := by
        intro es
        induction es with
        | nil => exact fun _ h => (by cases h)
        | cons g es ih =>
          intro x hx
          rcases List.mem_cons.1 hx with rfl | hx
          · by_cases hn : g.st = .null
            · simp only [if_true, dispatch, gmmFsm, hn]
              exact fun h => (by cases h)
            · exact (awake_closed cfg).dispatch hn (fun h => (by cases h))
          · exact ih x hx
      exact this L.es
  | attachReq p i d prm => exact hat _ _ _ (hcr p i d) (nev trivial) h
  | establishReq s p i d prm => exact hat _ _ _ (hcr p i d) (nev trivial) h
  | detachReq p ty off => exact hfo _ _ _ (nev trivial) h
  | simAuthRsp a k x s c => exact hfo _ _ _ (nev trivial) h
  | smUnitdataReq s pdu => exact hfo _ _ _ (nev trivial) h
  | pageInd t => exact hfo _ _ _ (nev trivial) h
  | llcTransmitted t => exact hfo _ _ _ (nev trivial) h
  | rx t b => exact hfo _ _ _ (nev trivial) h
  | fsmTimer k => exact hat _ _ _ hi (nev trivial) h
  | t3314 k => exact hat _ _ _ hi (nev trivial) h
  | t3312 k => exact hat _ _ _ hi (nev trivial) h
  | t3316 k => exact hat _ _ _ hi (nev trivial) h

/-- **C161** (partial, for GPRS enabled): no mobile station is in GMM-NULL. -/
theorem c161_enabled {cfg : GmmCfg} {L : GmmLayer} {t : List LayerObs} (h : LayerReach cfg L t)
    (he : L.enabled = true) : ∀ g ∈ L.es, g.st ≠ .null := by
  obtain ⟨l, h⟩ := h
  have : ∀ (l : List LayerIn) (L L' : GmmLayer) (t : List LayerObs),
      (L.enabled = true → ∀ g ∈ L.es, g.st ≠ .null) → layerRun cfg L l = .ok (L', t) →
      L'.enabled = true → ∀ g ∈ L'.es, g.st ≠ .null := by
    intro l
    induction l with
    | nil =>
      intro L L' t hi h
      unfold layerRun at h
      injection h with h; injection h with h1 h2
      subst h1; exact hi
    | cons i l ih =>
      intro L L' t hi h
      unfold layerRun at h
      obtain ⟨r, hr, h⟩ := bind_eq_ok.1 h
      obtain ⟨x, hx, h⟩ := bind_eq_ok.1 h
      injection h with h; injection h with h1 h2
      subst h1
      exact ih _ _ _ (layerStep_awake hi hr) hx
  exact this l _ _ _ (fun h => (by cases h)) h he

/-! ## While GPRS is disabled -/

/-- GPRS is disabled and all mobile stations are in GMM-NULL. -/
def Asleep (L : GmmLayer) : Prop := L.enabled = false ∧ ∀ g ∈ L.es, g.st = .null

/-- Neither is GPRS enabled nor does a mobile station detach for power-off. -/
def NotWaking : LayerEv → Prop
  | .enable on => on = false
  | .detachReq _ _ off => off = false
  | _ => True

theorem layerStep_asleep {cfg : GmmCfg} {ok : GmmOut → Bool} {L : GmmLayer} {ev : LayerEv} {r : LayerStep}
    (hi : Asleep L) (hev : NotWaking ev) (h : layerStep cfg ok L ev = .ok r) : Asleep r.layer := by
  have hat : ∀ (L : GmmLayer) (k : Nat) (ev : GmmEv), Asleep L → (∀ on, ev ≠ .enable on) →
      (∀ t q, ev = .detachReq t q → q = false) → stepAt cfg ok L k ev = .ok r → Asleep r.layer := by
    intro L k ev hi hev hq h
    unfold stepAt at h
    split at h
    · rename_i g hg
      obtain ⟨s, hs, h⟩ := bind_eq_ok.1 h
      injection h with h; subst h
      refine ⟨hi.1, fun x hx => ?_⟩
      rcases List.mem_or_eq_of_mem_set hx with hx | rfl
      · exact hi.2 x hx
      · exact (asleep_closed cfg).stepF g ok ev s (hi.2 g (List.mem_of_getElem? hg)) (fun _ => trivial)
          (fun on e => absurd e (hev on)) (fun t q e => by
            rw [hq t q e]; exact ⟨fun h => (by cases h), fun h => (by cases h)⟩) hs
    · injection h with h; subst h; exact hi
  have hfo : ∀ (k : Option Nat) (e : Errno) (ev : GmmEv), (∀ on, ev ≠ .enable on) →
      (∀ t q, ev = .detachReq t q → q = false) →
      stepFound cfg ok L k e ev = .ok r → Asleep r.layer := by
    intro k e ev hev hq h
    unfold stepFound at h
    split at h
    · exact hat _ _ _ hi hev hq h
    · injection h with h; subst h; exact hi
  have hcr : ∀ p i d, Asleep (findOrCreate L p i d).1 := by
    intro p i d
    unfold findOrCreate
    split
    · exact hi
    · split
      · exact hi
      · refine ⟨hi.1, fun g hg => ?_⟩
        rcases List.mem_cons.1 hg with rfl | hg
        · show (if L.enabled = true then GmmSt.dereg else .null) = .null
          rw [hi.1]; rfl
        · exact hi.2 g hg
  have nev : ∀ {e : GmmEv}, (match e with | .enable _ => False | _ => True) → ∀ on, e ≠ .enable on := by
    intro e h on he
    subst he; exact h
  have nof : ∀ {e : GmmEv}, (match e with | .detachReq .. => False | _ => True) →
      ∀ t q, e = .detachReq t q → q = false := by
    intro e h t q he
    subst he; exact h.elim
  cases ev with
  | enable on =>
    simp only [layerStep] at h
    split at h
    · injection h with h; subst h; exact hi
    · rename_i hne
      exact absurd (hi.1.trans (Eq.symm hev)) hne
  | attachReq p i d prm => exact hat _ _ _ (hcr p i d) (nev trivial) (nof trivial) h
  | establishReq s p i d prm => exact hat _ _ _ (hcr p i d) (nev trivial) (nof trivial) h
  | detachReq p ty off =>
    exact hfo _ _ _ (nev trivial) (fun t q e => by injection e with _ e; rw [← e]; exact hev) h
  | simAuthRsp a k x s c => exact hfo _ _ _ (nev trivial) (nof trivial) h
  | smUnitdataReq s pdu => exact hfo _ _ _ (nev trivial) (nof trivial) h
  | pageInd t => exact hfo _ _ _ (nev trivial) (nof trivial) h
  | llcTransmitted t => exact hfo _ _ _ (nev trivial) (nof trivial) h
  | rx t b => exact hfo _ _ _ (nev trivial) (nof trivial) h
  | fsmTimer k => exact hat _ _ _ hi (nev trivial) (nof trivial) h
  | t3314 k => exact hat _ _ _ hi (nev trivial) (nof trivial) h
  | t3312 k => exact hat _ _ _ hi (nev trivial) (nof trivial) h
  | t3316 k => exact hat _ _ _ hi (nev trivial) (nof trivial) h

/-- When GPRS is disabled while all mobile stations are deregistered, all are in GMM-NULL. -/
theorem c161_disable {cfg : GmmCfg} {ok : GmmOut → Bool} {L : GmmLayer} {r : LayerStep} (he : L.enabled = true)
    (hd : ∀ g ∈ L.es, g.st = .dereg) (h : layerStep cfg ok L (.enable false) = .ok r) : Asleep r.layer := by
  simp only [layerStep] at h
  rw [he, if_neg (by decide)] at h
  injection h with h; subst h
  refine ⟨rfl, ?_⟩
  have : ∀ es : List Gmme, (∀ g ∈ es, g.st = .dereg) → ∀ g ∈ (enableAll cfg ok false es).1, g.st = .null := by
    intro es
    induction es with
    | nil => exact fun _ _ h => (by cases h)
    | cons g es ih =>
      intro hd x hx
      rcases List.mem_cons.1 hx with rfl | hx
      · simp only [dispatch, gmmFsm, hd g List.mem_cons_self]; rfl
      · exact ih (fun y hy => hd y (List.mem_cons_of_mem _ hy)) x hx
  exact this L.es hd

/-- When GPRS is enabled while all mobile stations are in GMM-NULL, all are deregistered. -/
theorem c161_enable {cfg : GmmCfg} {ok : GmmOut → Bool} {L : GmmLayer} {r : LayerStep} (ha : Asleep L)
    (h : layerStep cfg ok L (.enable true) = .ok r) :
    r.layer.enabled = true ∧ ∀ g ∈ r.layer.es, g.st = .dereg := by
  simp only [layerStep] at h
  rw [ha.1, if_neg (by decide)] at h
  injection h with h; subst h
  refine ⟨rfl, ?_⟩
  have : ∀ es : List Gmme, (∀ g ∈ es, g.st = .null) → ∀ g ∈ (enableAll cfg ok true es).1, g.st = .dereg := by
    intro es
    induction es with
    | nil => exact fun _ _ h => (by cases h)
    | cons g es ih =>
      intro hd x hx
      rcases List.mem_cons.1 hx with rfl | hx
      · simp only [dispatch, gmmFsm, hd g List.mem_cons_self]; rfl
      · exact ih (fun y hy => hd y (List.mem_cons_of_mem _ hy)) x hx
  exact this L.es ha.2

theorem asleep_quiet {cfg : GmmCfg} {ok : GmmOut → Bool} {L : GmmLayer} {ev : LayerEv} {r : LayerStep}
    (hi : Asleep L) (hev : OnItsOwn ev) (h : layerStep cfg ok L ev = .ok r) : ∀ o ∈ r.seen, o.obs.out = [] := by
  have hat : ∀ (L : GmmLayer) (k : Nat) (ev : GmmEv), Asleep L →
      (match ev with
        | .attachReq .. | .establishReq .. | .fsmTimer | .t3314 | .t3312 | .t3316 => True | _ => False) →
      stepAt cfg ok L k ev = .ok r → ∀ o ∈ r.seen, o.obs.out = [] := by
    intro L k ev hi hk h
    unfold stepAt at h
    split at h
    · rename_i g hg
      obtain ⟨s, hs, h⟩ := bind_eq_ok.1 h
      injection h with h; subst h
      intro o ho
      rw [List.mem_singleton] at ho; subst ho
      show s.out = []
      have hn := hi.2 g (List.mem_of_getElem? hg)
      cases ev with
      | attachReq q =>
        injection hs with hs; subst hs
        simp only [attachReqAct, requestAttach, dispatch, gmmFsm, storeIdentities, hn]
      | establishReq s' q =>
        injection hs with hs; subst hs
        simp only [establishReqAct, requestAttach, dispatch, gmmFsm, storeIdentities, hn, reduceCtorEq, if_false]
      | fsmTimer => injection hs with hs; subst hs; simp only [fsmTimeout, hn]
      | t3314 => injection hs with hs; subst hs; split <;> rfl
      | t3312 =>
        injection hs with hs; subst hs
        unfold periodicUpdate
        split
        · simp only [dispatch, gmmFsm, hn]
        · rfl
      | t3316 => injection hs with hs; subst hs; split <;> rfl
      | _ => exact hk.elim
    · injection h with h; subst h
      exact fun _ ho => (by cases ho)
  have hcr : ∀ p i d, Asleep (findOrCreate L p i d).1 := by
    intro p i d
    unfold findOrCreate
    split
    · exact hi
    · split
      · exact hi
      · refine ⟨hi.1, fun g hg => ?_⟩
        rcases List.mem_cons.1 hg with rfl | hg
        · show (if L.enabled = true then GmmSt.dereg else .null) = .null
          rw [hi.1]; rfl
        · exact hi.2 g hg
  cases ev with
  | attachReq p i d prm => exact hat _ _ _ (hcr p i d) trivial h
  | establishReq s p i d prm => exact hat _ _ _ (hcr p i d) trivial h
  | fsmTimer k => exact hat _ _ _ hi trivial h
  | t3314 k => exact hat _ _ _ hi trivial h
  | t3312 k => exact hat _ _ _ hi trivial h
  | t3316 k => exact hat _ _ _ hi trivial h
  | _ => exact hev.elim

/-- **C161** (partial, for GPRS disabled): once all mobile stations are in GMM-NULL, and until GPRS is
enabled or one of them detaches for power-off, they stay there, and requests for registration and timers
lead to nothing. -/
theorem c161_disabled_partial {cfg : GmmCfg} : ∀ (l : List LayerIn) (L L' : GmmLayer) (t : List LayerObs), Asleep L →
    (∀ i ∈ l, NotWaking i.ev) → layerRun cfg L l = .ok (L', t) →
    Asleep L' ∧ ∀ ok ev r, OnItsOwn ev → layerStep cfg ok L' ev = .ok r → ∀ o ∈ r.seen, o.obs.out = [] := by
  intro l
  induction l with
  | nil =>
    intro L L' t hi _ h
    unfold layerRun at h
    injection h with h; injection h with h1 h2
    subst h1
    exact ⟨hi, fun ok ev r hev h => asleep_quiet hi hev h⟩
  | cons i l ih =>
    intro L L' t hi hw h
    unfold layerRun at h
    obtain ⟨r, hr, h⟩ := bind_eq_ok.1 h
    obtain ⟨x, hx, h⟩ := bind_eq_ok.1 h
    injection h with h; injection h with h1 h2
    subst h1
    exact ih _ _ _ (layerStep_asleep hi (hw i List.mem_cons_self) hr) (fun j hj => hw j (List.mem_cons_of_mem _ hj)) hx

/-! ## The full statement fails -/

/-- What was handed to the neighbours. -/
def layerOuts (r : Res LayerStep) : List GmmOut :=
  match r with
  | .ok r => r.seen.flatMap fun o => o.obs.out
  | _ => []

theorem awake_though_disabled {l : List LayerIn} {ev : LayerEv} (hev : OnItsOwn ev)
    (h0 : okLayer (layerRun defaultCfg gmmLayer0 l) = true)
    (h1 : (layerOf (layerRun defaultCfg gmmLayer0 l)).enabled = false)
    (h2 : layerOuts (layerStep defaultCfg yes (layerOf (layerRun defaultCfg gmmLayer0 l)) ev) ≠ []) :
    ¬ C161Statement := by
  intro hs
  cases hr : layerStep defaultCfg yes (layerOf (layerRun defaultCfg gmmLayer0 l)) ev with
  | ok r =>
    have := (hs _ _ _ (layerReach h0)).2 h1 yes ev r hev hr
    rw [hr] at h2
    exact h2 (List.flatMap_eq_nil_iff.2 this)
  | err e => rw [hr] at h2; exact h2 rfl
  | ub u => rw [hr] at h2; exact h2 rfl

/-- **C161** fails: a registered mobile station takes no notice of GPRS being disabled, and sends ROUTING
AREA UPDATE REQUEST when T3312 expires. -/
theorem c161_violated : ¬ C161Statement :=
  awake_though_disabled (l := [⟨.enable true, yes⟩, ⟨.attachReq reservedTmsi [1] [1] prm0, yes⟩,
      ⟨.rx 0x78000001 attAccMsg, yes⟩, ⟨.llcTransmitted 0xea711b41, yes⟩, ⟨.t3314 0, yes⟩, ⟨.enable false, yes⟩]) (ev := .t3312 0) trivial
    (by decide +kernel) (by decide +kernel) (by decide +kernel)

/-- So does one that detaches for power-off while GPRS is disabled: it can be attached afterwards. -/
theorem c161_violated_poweroff : ¬ C161Statement :=
  awake_though_disabled (l := [⟨.attachReq 0xea711b41 [1] [1] prm0, yes⟩, ⟨.detachReq 0xea711b41 1 true, yes⟩])
    (ev := .attachReq 0xea711b41 [1] [] prm0) trivial
    (by decide +kernel) (by decide +kernel) (by decide +kernel)

/-! ## Instances -/

/-- A layer with a deregistered mobile station. -/
def oneDereg : List LayerIn := [⟨.attachReq 0xea711b41 [1] [1] prm0, yes⟩, ⟨.enable true, yes⟩]

example : ∃ L t, LayerReach defaultCfg L t ∧ L.enabled = true ∧ L.es.map Gmme.st = [.dereg] ∧
    ∃ r, layerStep defaultCfg yes L (.enable false) = .ok r ∧ Asleep r.layer :=
  ⟨layerOf (layerRun defaultCfg gmmLayer0 oneDereg), _, layerReach (l := oneDereg) (by decide +kernel),
    by decide +kernel, by decide +kernel, _, rfl,
    c161_disable (L := layerOf (layerRun defaultCfg gmmLayer0 oneDereg)) (by decide +kernel)
      (by decide +kernel) rfl⟩

end Verif.Props
