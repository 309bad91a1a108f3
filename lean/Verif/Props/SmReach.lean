import Verif.Props.SmOverGmm
import Verif.Props.GmmOwn
import Verif.Props.GmmLayer
import Verif.Props.GmmRelease
/-!
# C164: the activation request leaves by its own mobile station; C165: PDP contexts end with the registration
-/
namespace Verif.Props
open Verif Verif.Gmm Verif.Sm Verif.Gsm

/-! ## Specification -/

/-- **C164**, full statement.  In every history, a mobile station sends ACTIVATE PDP CONTEXT REQUEST only for an
NSAPI its user has asked for. -/
def C164Statement : Prop :=
  ∀ cfg (who : Nat → Ident) ok l s outs, (∀ e ∈ l, SgEv.Outside e) → sgRun cfg who ok sg0 l = .ok (s, outs) →
    ∀ i t b n, n < 256 → SgOut.gmm i (.llUnitdata t b) ∈ outs → IsActReq n b →
      ∃ r draws, SgEv.actReq r draws ∈ l ∧ r.nsapi = n ∧ (who r.msId).imsi = i

/-- **C165**, full statement.  In every history, a mobile station that is not registered has no active PDP
context. -/
def C165Statement : Prop :=
  ∀ cfg (who : Nat → Ident) ok l s outs, (∀ e ∈ l, SgEv.Outside e) → sgRun cfg who ok sg0 l = .ok (s, outs) →
    ∀ id n x, s.sm.slot id n = some x → x.st = .active →
      ∀ g ∈ s.gmm.es, g.imsi = (who id).imsi → g.st ≠ .dereg

/-! ## The histories that refute them -/

/-- Mobile station 1 asks for NSAPI 5, mobile station 2 for NSAPI 6; then the network accepts both. -/
def crossed : List SgEv :=
  [.actReq (sgReq 1 5 0xc0000001) [], .actReq (sgReq 2 6 0xc0000002) [],
   .gmm (.rx (foreignTlli 0xc0000002) (acceptMsg 1 0x4a 4 [0x62, 0xf2, 0x20, 0, 1, 0] (some 0xc0000012))),
   .gmm (.rx (foreignTlli 0xc0000001) (acceptMsg 1 0x4a 4 [0x62, 0xf2, 0x20, 0, 1, 0] (some 0xc0000011)))]

def sgOuts : Res (SmGmm × List SgOut) → List SgOut
  | .ok x => x.2
  | _ => []

def sgState : Res (SmGmm × List SgOut) → SmGmm
  | .ok x => x.1
  | _ => sg0

theorem sg_ran {cfg : GmmCfg} {l : List SgEv}
    (h : (match sgRun cfg sgWho yes sg0 l with | .ok _ => true | _ => false) = true) :
    sgRun cfg sgWho yes sg0 l = .ok (sgState (sgRun cfg sgWho yes sg0 l), sgOuts (sgRun cfg sgWho yes sg0 l)) := by
  cases hr : sgRun cfg sgWho yes sg0 l with
  | ok x => rfl
  | err e => rw [hr] at h; cases h
  | ub f => rw [hr] at h; cases h

/-- **C164 is violated**: mobile station 2 sends the request for the NSAPI mobile station 1 was asked for. -/
theorem c164_violated : ¬ C164Statement := by
  intro h
  obtain ⟨r, d, h1, h2, h3⟩ := h defaultCfg sgWho yes crossed _ _ (by
      intro e he
      simp only [crossed, List.mem_cons, List.not_mem_nil, or_false] at he
      rcases he with rfl | rfl | rfl | rfl <;> trivial)
    (sg_ran (by decide +kernel)) (sgWho 2).imsi 0xc0000012 [138, 65, 5, 3, 3, 0, 0, 0, 2, 1, 33] 5 (by decide)
    (by decide +kernel) ⟨138, _, rfl, by decide⟩
  simp only [crossed, List.mem_cons, List.not_mem_nil, or_false, SgEv.actReq.injEq, reduceCtorEq] at h1
  rcases h1 with ⟨rfl, -⟩ | ⟨rfl, -⟩
  · exact absurd h3 (by decide)
  · exact absurd h2 (by decide)

/-- The context at NSAPI 5 of mobile station 0 is active; the user asks for NSAPI 6; the mobile station is switched
off. -/
def twoContexts : List SgEv :=
  activation (sgReq 0 5 0xc0000001) [] 1 0x4a 4 [0x62, 0xf2, 0x20, 0, 1, 0] 0xc0000005 3 4 [0, 0, 0] ++
  [.actReq (sgReq 0 6 0xc0000005) [], .gmm (.detachReq 0xc0000005 1 true)]

/-- **C165 is violated**: the first PDP context stays active. -/
theorem c165_violated : ¬ C165Statement := by
  intro h
  have hr := sg_ran (cfg := defaultCfg) (l := twoContexts) (by decide +kernel)
  have h0 := h defaultCfg sgWho yes twoContexts _ _ (by
      intro e he
      simp only [twoContexts, activation, List.cons_append, List.nil_append, List.mem_cons, List.not_mem_nil, or_false] at he
      rcases he with rfl | rfl | rfl | rfl | rfl | rfl <;> trivial) hr 0 5
  have hx : ((sgState (sgRun defaultCfg sgWho yes sg0 twoContexts)).sm.slot 0 5).map Sme.st = some .active := by
    decide +kernel
  have hg : (sgState (sgRun defaultCfg sgWho yes sg0 twoContexts)).gmm.es.map (fun g => (g.imsi, g.st)) =
      [((sgWho 0).imsi, .dereg)] := by decide +kernel
  obtain ⟨x, hx1, hx2⟩ := Option.map_eq_some_iff.1 hx
  obtain ⟨g, l, hl, hg1, -⟩ := List.map_eq_cons_iff.1 hg
  injection hg1 with hg1 hg2
  exact h0 x hx1 hx2 g (by rw [hl]; exact List.mem_cons_self) hg1 hg2

/-! ## What SM sends -/

theorem dispatch_req {c c' : SmCtx} {id i : Nat} {s : Sme} {ev : SmEv} {pre o : List SmOut} {rc : Option Errno}
    (h : smDispatch c id i s ev pre = .ok (c', o, rc)) {k : Nat} {p : Octets} (hm : SmOut.unitdataReq k p ∈ o)
    (hp : SmOut.unitdataReq k p ∉ pre) : k = id ∧ ∃ x, c'.slot id i = some x ∧ p = buildActReq x := by
  rcases dispatch_ok h with ⟨s', o', hf, rfl, rfl, -⟩ | ⟨-, -, rfl, -⟩
  · rcases List.mem_append.1 hm with hm | hm
    · exact absurd hm hp
    · rcases smFsm_some hf with ⟨-, -, -, rfl⟩ | ⟨-, rfl, ⟨-, rfl⟩ | ⟨-, rfl⟩⟩ | ⟨-, -, rfl⟩ | ⟨cause, x, -, -, -, hx, rfl⟩ | ⟨x, -, -, -, hx, rfl⟩
      · rw [List.mem_singleton] at hm; unfold establishOut at hm; cases hm
      · rw [List.mem_singleton] at hm
        unfold txActReq at hm
        injection hm with h1 h2
        refine ⟨h1, s', ?_, h2⟩
        rw [slot_put, if_pos ⟨rfl, rfl⟩]
      · rw [List.mem_singleton] at hm; unfold snsmActOut at hm; cases hm
      · cases hm
      · rw [List.mem_singleton] at hm
        rcases (actCnf_ok hx).2 with ⟨-, rfl⟩ | ⟨-, rfl⟩ <;> cases hm
      · rw [List.mem_singleton] at hm
        rcases (actCnf_ok hx).2 with ⟨-, rfl⟩ | ⟨-, rfl⟩ <;> cases hm
  · exact absurd hm hp

theorem sm_req {c c' : SmCtx} {ev : SmIn} {o : List SmOut} {rc : Option Errno}
    (h : smStep c ev = .ok (c', o, rc)) {k : Nat} {p : Octets} (hm : SmOut.unitdataReq k p ∈ o) :
    ∃ i x, c'.slot k i = some x ∧ p = buildActReq x := by
  have hd : ∀ {c : SmCtx} {id i : Nat} {s : Sme} {ev : SmEv}, smDispatch c id i s ev [] = .ok (c', o, rc) →
      ∃ i x, c'.slot k i = some x ∧ p = buildActReq x := by
    intro c id i s ev h
    obtain ⟨rfl, x, hx, hp⟩ := dispatch_req h hm (by simp)
    exact ⟨i, x, hx, hp⟩
  have hnil : ∀ {c : SmCtx} {e : Option Errno}, Res.ok (c, ([] : List SmOut), e) = Res.ok (c', o, rc) → False := by
    intro c e h
    injection h with h
    injection h with _ h
    injection h with h
    subst h
    cases hm
  cases ev with
  | actReq r =>
    simp only [smStep] at h
    have hs : ∀ c, startAct c r = .ok (c', o, rc) → ∃ i x, c'.slot k i = some x ∧ p = buildActReq x := by
      intro c h
      unfold startAct at h
      split at h
      · cases h
      · split at h
        · cases h
        · exact hd h
    unfold actReqStep at h
    split at h
    · cases h
    · split at h
      · cases h
      · split at h
        · cases h
        · split at h
          · split at h
            · split at h
              · exact (hnil h).elim
              · exact hs _ h
            · cases h
          · exact hs _ h
  | estAcc sess a g t =>
    simp only [smStep] at h
    rcases withSess_cases h with h | ⟨id, i, s, -, -, -, -, -, h⟩
    · exact (hnil h.symm).elim
    · exact hd h
  | estRej sess =>
    simp only [smStep] at h
    rcases withSess_cases h with h | ⟨id, i, s, -, -, -, -, -, h⟩
    · exact (hnil h.symm).elim
    · exact hd h
  | relInd sess =>
    simp only [smStep] at h
    rcases withSess_cases h with h | ⟨id, i, s, -, -, -, -, -, h⟩
    · exact (hnil h.symm).elim
    · exact hd h
  | unitdataInd sess b =>
    simp only [smStep] at h
    rcases withSess_cases h with h | ⟨id, i, s, -, -, -, -, -, h⟩
    · exact (hnil h.symm).elim
    · unfold smRx at h
      split at h
      · exact (hnil h).elim
      · split at h
        · exact (hnil h).elim
        · cases h
        · split at h
          · split at h
            · exact hd h
            · exact (hnil h).elim
            · cases h
          · split at h
            · split at h
              · exact hd h
              · exact (hnil h).elim
              · cases h
            · exact (hnil h).elim
  | modifyInd sess a g t st =>
    simp only [smStep] at h
    rcases withSess_cases h with h | ⟨id, i, s, -, -, -, -, -, h⟩
    · exact (hnil h.symm).elim
    · injection h with h
      injection h with _ h
      injection h with h
      rw [← h] at hm
      split at hm
      · unfold statusOuts at hm
        obtain ⟨j, -, hj⟩ := List.mem_filterMap.1 hm
        split at hj
        · split at hj
          · unfold snsmDeactOut at hj; cases hj
          · cases hj
        · cases hj
      · cases hm
  | snsmActRsp t n =>
    simp only [smStep] at h
    rcases withNsapi_cases h with h | h | ⟨id, s, -, -, h⟩
    · exact (hnil h.symm).elim
    · cases h
    · exact hd h
  | snsmDeactRsp t n =>
    simp only [smStep] at h
    rcases withNsapi_cases h with h | h | ⟨id, s, -, -, h⟩
    · exact (hnil h.symm).elim
    · cases h
    · split at h
      · rename_i y hy
        obtain ⟨rfl, x, hx, hp⟩ := dispatch_req h hm (by
          rw [List.mem_singleton]
          rintro rfl
          unfold deactOut pcoToPrim at hy
          split at hy
          · rw [Res.bind_ok] at hy; cases hy
          · cases hy)
        exact ⟨_, x, hx, hp⟩
      · exact (hnil h).elim
      · cases h
  | timeout id i =>
    simp only [smStep] at h
    split at h
    · split at h
      · unfold smTimeout at h
        split at h
        · exact (hnil h).elim
        · exact (hnil h).elim
        · dsimp only at h
          split at h
          · cases h
          · split at h
            · exact hd h
            · injection h with h
              injection h with _ h
              injection h with h
              rw [← h] at hm
              unfold toPending establishOut at hm
              rw [List.mem_singleton] at hm
              cases hm
      · exact (hnil h).elim
    · exact (hnil h).elim

/-! ## What GMM sends -/

/-- The mobile station an event is for, where it is named. -/
def EvImsi (K : List Nat → Prop) : LayerEv → Prop
  | .attachReq _ i _ _ => K i
  | .establishReq _ _ i _ _ => K i
  | _ => True

/-- All mobile stations GMM knows. -/
def AllIn (K : List Nat → Prop) (L : GmmLayer) : Prop := ∀ g ∈ L.es, K g.imsi

theorem stepAt_in {K : List Nat → Prop} {cfg : GmmCfg} {ok : GmmOut → Bool} {L : GmmLayer} {k : Nat} {ev : GmmEv}
    {r : LayerStep} (hi : AllIn K L) (h : stepAt cfg ok L k ev = .ok r) :
    AllIn K r.layer ∧ ∀ o ∈ r.seen, K o.imsi ∧
      ((∀ b, ev ≠ .smUnitdataReq b) → ∀ t b, GmmOut.llUnitdata t b ∈ o.obs.out → b.head? = some 0x08) ∧
      (∀ b, ev = .smUnitdataReq b → ∃ t, o.obs.out = [.llUnitdata t b]) := by
  unfold stepAt at h
  split at h
  · rename_i g hg
    obtain ⟨s, hs, h⟩ := bind_eq_ok.1 h
    injection h with h; subst h
    have hK := hi g (List.mem_of_getElem? hg)
    refine ⟨fun x hx => ?_, fun o ho => ?_⟩
    · rcases List.mem_or_eq_of_mem_set hx with hx | rfl
      · exact hi x hx
      · rw [step_imsi hs]; exact hK
    · rw [List.mem_singleton] at ho; subst ho
      refine ⟨hK, fun hn t b hb => step_own hs hn hb, ?_⟩
      rintro b rfl
      injection hs with hs; subst hs
      exact ⟨_, rfl⟩
  · injection h with h; subst h
    exact ⟨hi, fun o ho => by cases ho⟩

theorem stepFound_in {K : List Nat → Prop} {cfg : GmmCfg} {ok : GmmOut → Bool} {L : GmmLayer} {k : Option Nat} {e : Errno}
    {ev : GmmEv} {r : LayerStep} (hi : AllIn K L) (h : stepFound cfg ok L k e ev = .ok r) :
    AllIn K r.layer ∧ ∀ o ∈ r.seen, K o.imsi ∧
      ((∀ b, ev ≠ .smUnitdataReq b) → ∀ t b, GmmOut.llUnitdata t b ∈ o.obs.out → b.head? = some 0x08) ∧
      (∀ b, ev = .smUnitdataReq b → ∃ t, o.obs.out = [.llUnitdata t b]) := by
  unfold stepFound at h
  split at h
  · exact stepAt_in hi h
  · injection h with h; subst h
    exact ⟨hi, fun o ho => by cases ho⟩

theorem findOrCreate_in {K : List Nat → Prop} {L : GmmLayer} {p : Nat} {i d : List Nat} (hi : AllIn K L) (hk : K i) :
    AllIn K (findOrCreate L p i d).1 := by
  unfold findOrCreate
  split
  · exact hi
  · split
    · exact hi
    · intro g hg
      rcases List.mem_cons.1 hg with rfl | hg
      · exact hk
      · exact hi g hg

theorem enableAll_in {K : List Nat → Prop} {cfg : GmmCfg} {ok : GmmOut → Bool} {on : Bool} (es : List Gmme)
    (hi : ∀ g ∈ es, K g.imsi) : (∀ g ∈ (enableAll cfg ok on es).1, K g.imsi) ∧
      ∀ o ∈ (enableAll cfg ok on es).2, K o.imsi ∧ ∀ t b, GmmOut.llUnitdata t b ∈ o.obs.out → b.head? = some 0x08 := by
  induction es with
  | nil => exact ⟨fun _ h => (by cases h), fun _ h => (by cases h)⟩
  | cons g es ih =>
    obtain ⟨h1, h2⟩ := ih fun x hx => hi x (List.mem_cons_of_mem _ hx)
    have hg := hi g List.mem_cons_self
    have hs : gmmStep cfg ok g (.enable on) = .ok (dispatch cfg ok g [] (if on then .enable else .disable)) := rfl
    refine ⟨fun x hx => ?_, fun o ho => ?_⟩
    · rcases List.mem_cons.1 hx with rfl | hx
      · rw [step_imsi hs]; exact hg
      · exact h1 x hx
    · rcases List.mem_cons.1 ho with rfl | ho
      · exact ⟨hg, fun t b hb => step_own hs (fun b h => by cases h) hb⟩
      · exact h2 o ho

/-- GMM's own messages are GMM messages, and what SM gives it is sent as it is, by one of the mobile stations. -/
theorem layer_in {K : List Nat → Prop} {cfg : GmmCfg} {ok : GmmOut → Bool} {L : GmmLayer} {ev : LayerEv} {r : LayerStep}
    (hi : AllIn K L) (he : EvImsi K ev) (h : layerStep cfg ok L ev = .ok r) :
    AllIn K r.layer ∧ ∀ x ∈ sgSeen r, ∀ t b, x.2 = .llUnitdata t b → K x.1 ∧
      (b.head? = some 0x08 ∨ ∃ s, ev = .smUnitdataReq s b) := by
  have wrap : ∀ {e : GmmEv}, (AllIn K r.layer ∧ ∀ o ∈ r.seen, K o.imsi ∧
      ((∀ b, e ≠ .smUnitdataReq b) → ∀ t b, GmmOut.llUnitdata t b ∈ o.obs.out → b.head? = some 0x08) ∧
      (∀ b, e = .smUnitdataReq b → ∃ t, o.obs.out = [.llUnitdata t b])) →
      (∀ b, e = .smUnitdataReq b → ∃ s, ev = .smUnitdataReq s b) →
      AllIn K r.layer ∧ ∀ x ∈ sgSeen r, ∀ t b, x.2 = .llUnitdata t b → K x.1 ∧
        (b.head? = some 0x08 ∨ ∃ s, ev = .smUnitdataReq s b) := by
    rintro e ⟨h1, h2⟩ h3
    refine ⟨h1, fun x hx t b hb => ?_⟩
    unfold sgSeen at hx
    obtain ⟨o, ho, hx⟩ := List.mem_flatMap.1 hx
    obtain ⟨y, hy, rfl⟩ := List.mem_map.1 hx
    obtain ⟨k1, k2, k3⟩ := h2 o ho
    dsimp only at hb
    subst hb
    refine ⟨k1, ?_⟩
    by_cases hn : ∀ b, e ≠ .smUnitdataReq b
    · exact Or.inl (k2 hn t b hy)
    · obtain ⟨d, hd⟩ := Classical.not_forall.1 hn
      have hd := Classical.not_not.1 hd
      obtain ⟨u, hu⟩ := k3 d hd
      rw [hu, List.mem_singleton] at hy
      injection hy with _ hy
      subst hy
      exact Or.inr (h3 _ hd)
  cases ev with
  | enable on =>
    simp only [layerStep] at h
    split at h
    · injection h with h; subst h
      exact ⟨hi, fun x hx => by cases hx⟩
    · injection h with h; subst h
      obtain ⟨h1, h2⟩ := enableAll_in (cfg := cfg) (ok := ok) (on := on) L.es hi
      refine ⟨h1, fun x hx t b hb => ?_⟩
      unfold sgSeen at hx
      obtain ⟨o, ho, hx⟩ := List.mem_flatMap.1 hx
      obtain ⟨y, hy, rfl⟩ := List.mem_map.1 hx
      dsimp only at hb
      subst hb
      exact ⟨(h2 o ho).1, Or.inl ((h2 o ho).2 t b hy)⟩
  | attachReq p i d prm => exact wrap (stepAt_in (findOrCreate_in hi he) h) (fun b h => by cases h)
  | detachReq p ty off => exact wrap (stepFound_in hi h) (fun b h => by cases h)
  | simAuthRsp a k x s kc => exact wrap (stepFound_in hi h) (fun b h => by cases h)
  | establishReq s p i d prm => exact wrap (stepAt_in (findOrCreate_in hi he) h) (fun b h => by cases h)
  | smUnitdataReq s pdu => exact wrap (stepFound_in hi h) (fun b h => by injection h with h; subst h; exact ⟨s, rfl⟩)
  | pageInd t => exact wrap (stepFound_in hi h) (fun b h => by cases h)
  | llcTransmitted t => exact wrap (stepFound_in hi h) (fun b h => by cases h)
  | rx t b => exact wrap (stepFound_in hi h) (fun b h => by cases h)
  | fsmTimer k => exact wrap (stepAt_in hi h) (fun b h => by cases h)
  | t3314 k => exact wrap (stepAt_in hi h) (fun b h => by cases h)
  | t3312 k => exact wrap (stepAt_in hi h) (fun b h => by cases h)
  | t3316 k => exact wrap (stepAt_in hi h) (fun b h => by cases h)

/-! ## Both -/

/-- The invariant: PDP contexts are those that were asked for (`A`), mobile stations those that are known (`K`). -/
structure SgInv (A : Nat → Nat → Prop) (K : List Nat → Prop) (s : SmGmm) : Prop where
  sm    : SmInv s.sm
  asked : ∀ id n x, s.sm.slot id n = some x → A id n
  imsi  : AllIn K s.gmm

/-- What is sent: GMM's own messages, and activation requests for what was asked for. -/
def SgGood (A : Nat → Nat → Prop) (K : List Nat → Prop) (y : SgOut) : Prop :=
  ∀ i t b, y = .gmm i (.llUnitdata t b) → K i ∧ (b.head? = some 0x08 ∨ ∃ id n, A id n ∧ n < 16 ∧ IsActReq n b)

theorem sgFold_inv {α : Type} {P : SmGmm → Prop} {Q : SgOut → Prop} {f : SmGmm → α → Res (SmGmm × List SgOut)} :
    ∀ (l : List α) (s s' : SmGmm) (o : List SgOut),
    (∀ x ∈ l, ∀ s s' o, P s → f s x = .ok (s', o) → P s' ∧ ∀ y ∈ o, Q y) → P s → sgFold f s l = .ok (s', o) →
    P s' ∧ ∀ y ∈ o, Q y := by
  intro l
  induction l with
  | nil =>
    intro s s' o _ hp h
    injection h with h
    injection h with h1 h2
    subst h1 h2
    exact ⟨hp, fun y hy => by cases hy⟩
  | cons x l ih =>
    intro s s' o hf hp h
    obtain ⟨r, h1, h⟩ := bind_eq_ok.1 h
    obtain ⟨t, h2, h⟩ := bind_eq_ok.1 h
    injection h with h
    injection h with h3 h4
    subst h3 h4
    obtain ⟨p1, q1⟩ := hf x List.mem_cons_self s r.1 r.2 hp h1
    obtain ⟨p2, q2⟩ := ih r.1 t.1 t.2 (fun x hx => hf x (List.mem_cons_of_mem _ hx)) p1 h2
    refine ⟨p2, fun y hy => ?_⟩
    rcases List.mem_append.1 hy with hy | hy
    · exact q1 y hy
    · exact q2 y hy

/-- SM alone: what was asked for stays. -/
theorem sm_asked {A : Nat → Nat → Prop} {c c' : SmCtx} {e : SmIn} {o : List SmOut} {rc : Option Errno} (hi : SmInv c)
    (ha : ∀ id n x, c.slot id n = some x → A id n) (he : ∀ r, e = .actReq r → A r.msId r.nsapi)
    (h : smStep c e = .ok (c', o, rc)) : SmInv c' ∧ (∀ id n x, c'.slot id n = some x → A id n) ∧
      ∀ k p, SmOut.unitdataReq k p ∈ o → ∃ n, A k n ∧ n < 16 ∧ IsActReq n p := by
  have hi' := step_inv hi h
  have ha' : ∀ id n x, c'.slot id n = some x → A id n := by
    intro id n x hx
    obtain ⟨-, hch, -⟩ := step_change hi h
    rcases hch with ⟨hs, -⟩ | ⟨id', i', s', ht, hs⟩
    · rw [hs] at hx; exact ha id n x hx
    · rw [hs] at hx
      split at hx
      · rename_i heq
        obtain ⟨rfl, rfl⟩ := heq
        subst hx
        cases hc : c.slot id n with
        | some y => exact ha id n y hc
        | none =>
          rw [hc] at ht
          cases ht with
          | start r m s h1 h2 => rw [← h1, ← h2]; exact he r rfl
      · exact ha id n x hx
  refine ⟨hi', ha', fun k p hm => ?_⟩
  obtain ⟨i, x, hx, rfl⟩ := sm_req h hm
  obtain ⟨h1, h2, -, -, -, h3, -⟩ := hi'.slot k i x hx
  exact ⟨i, ha' k i x hx, h2, h1 ▸ isActReq_build h3⟩

theorem sgData_inv {A : Nat → Nat → Prop} {K : List Nat → Prop} {cfg : GmmCfg} {ok : GmmOut → Bool} {s s' : SmGmm} {x : SmOut}
    {o : List SgOut} (hx : ∀ k p, x = .unitdataReq k p → ∃ n, A k n ∧ n < 16 ∧ IsActReq n p) (hi : SgInv A K s)
    (h : sgData cfg ok s x = .ok (s', o)) : SgInv A K s' ∧ ∀ y ∈ o, SgGood A K y := by
  unfold sgData at h
  split at h
  · rename_i k p
    obtain ⟨r, h1, h⟩ := bind_eq_ok.1 h
    injection h with h
    injection h with h3 h4
    subst h3 h4
    obtain ⟨h5, h6⟩ := layer_in (K := K) hi.imsi (ev := .smUnitdataReq k p) trivial h1
    refine ⟨⟨hi.sm, hi.asked, h5⟩, fun y hy i t b hb => ?_⟩
    obtain ⟨z, hz, rfl⟩ := List.mem_map.1 hy
    injection hb with hb1 hb2
    obtain ⟨k1, k2⟩ := h6 z hz t b hb2
    refine ⟨hb1 ▸ k1, k2.imp id ?_⟩
    rintro ⟨s2, hs2⟩
    injection hs2 with _ hs2
    subst hs2
    obtain ⟨n, hn⟩ := hx k p rfl
    exact ⟨k, n, hn⟩
  · injection h with h
    injection h with h3 h4
    subst h3 h4
    refine ⟨hi, fun y hy i t b hb => ?_⟩
    rw [List.mem_singleton] at hy
    rw [hy] at hb
    cases hb

theorem sgUp_inv {A : Nat → Nat → Prop} {K : List Nat → Prop} {cfg : GmmCfg} {ok : GmmOut → Bool} {s s' : SmGmm}
    {x : List Nat × GmmOut} {o : List SgOut} (hx : ∀ t b, x.2 = .llUnitdata t b → K x.1 ∧ b.head? = some 0x08)
    (hi : SgInv A K s) (h : sgUp cfg ok s x = .ok (s', o)) : SgInv A K s' ∧ ∀ y ∈ o, SgGood A K y := by
  unfold sgUp at h
  split at h
  · injection h with h
    injection h with h3 h4
    subst h3 h4
    refine ⟨hi, fun y hy i t b hb => ?_⟩
    rw [List.mem_singleton] at hy
    rw [hy] at hb
    injection hb with hb1 hb2
    obtain ⟨k1, k2⟩ := hx t b hb2
    exact ⟨hb1 ▸ k1, Or.inl k2⟩
  · rename_i e he
    obtain ⟨r, h1, h⟩ := bind_eq_ok.1 h
    have hr : ∀ q, e ≠ .actReq q := by
      rintro q rfl
      unfold smInOf at he
      split at he <;> cases he
    obtain ⟨k1, k2, k3⟩ := sm_asked (o := r.2.1) (rc := r.2.2) hi.sm hi.asked (fun q hq => absurd hq (hr q)) h1
    exact sgFold_inv (P := SgInv A K) (f := sgData cfg ok) _ ⟨r.1, s.gmm⟩ _ _
      (fun z hz s s' o hp hf => sgData_inv (fun k p hzk => k3 k p (hzk ▸ hz)) hp hf) ⟨k1, k2, hi.imsi⟩ h

theorem sgDown_inv {A : Nat → Nat → Prop} {K : List Nat → Prop} {cfg : GmmCfg} {ok : GmmOut → Bool} {who : Ident}
    {draws : List Nat} {s s' : SmGmm} {x : SmOut} {o : List SgOut} (hw : K who.imsi)
    (hx : ∀ k p, x = .unitdataReq k p → ∃ n, A k n ∧ n < 16 ∧ IsActReq n p) (hi : SgInv A K s)
    (h : sgDown cfg ok who draws s x = .ok (s', o)) : SgInv A K s' ∧ ∀ y ∈ o, SgGood A K y := by
  unfold sgDown at h
  split at h
  · rename_i sess p g w
    obtain ⟨r, h1, h⟩ := bind_eq_ok.1 h
    obtain ⟨h5, h6⟩ := layer_in (K := K) hi.imsi (ev := .establishReq sess p who.imsi draws (estPrm who g w)) hw h1
    refine sgFold_inv (P := SgInv A K) (f := sgUp cfg ok) _ ⟨s.sm, r.layer⟩ _ _
      (fun z hz s s' o hp hf => sgUp_inv (fun t b hb => ?_) hp hf) ⟨hi.sm, hi.asked, h5⟩ h
    obtain ⟨k1, k2⟩ := h6 z hz t b hb
    refine ⟨k1, k2.resolve_right ?_⟩
    rintro ⟨s2, hs2⟩
    cases hs2
  · exact sgData_inv hx hi h

/-- The events of a history. -/
def SgEvOk (A : Nat → Nat → Prop) (K : List Nat → Prop) (who : Nat → Ident) : SgEv → Prop
  | .actReq r _ => A r.msId r.nsapi ∧ K (who r.msId).imsi
  | .timeout id _ _ => K (who id).imsi
  | .gmm ev => EvImsi K ev
  | _ => True

theorem sgStep_inv {A : Nat → Nat → Prop} {K : List Nat → Prop} {cfg : GmmCfg} {who : Nat → Ident} {ok : GmmOut → Bool}
    {s s' : SmGmm} {e : SgEv} {o : List SgOut} (he : SgEvOk A K who e) (hout : e.Outside) (hi : SgInv A K s)
    (h0 : K (who 0).imsi) (h : sgStep cfg who ok s e = .ok (s', o)) : SgInv A K s' ∧ ∀ y ∈ o, SgGood A K y := by
  have hsm : ∀ {w : Ident} {draws : List Nat} {i : SmIn}, K w.imsi → (∀ r, i = .actReq r → A r.msId r.nsapi) →
      sgSm cfg ok w draws s i = .ok (s', o) → SgInv A K s' ∧ ∀ y ∈ o, SgGood A K y := by
    intro w draws i hw ha h
    obtain ⟨r, h1, h⟩ := bind_eq_ok.1 h
    obtain ⟨k1, k2, k3⟩ := sm_asked (o := r.2.1) (rc := r.2.2) hi.sm hi.asked ha h1
    exact sgFold_inv (P := SgInv A K) (f := sgDown cfg ok w draws) _ ⟨r.1, s.gmm⟩ _ _
      (fun z hz s s' o hp hf => sgDown_inv hw (fun k p hzk => k3 k p (hzk ▸ hz)) hp hf) ⟨k1, k2, hi.imsi⟩ h
  cases e with
  | actReq r d => exact hsm he.2 (fun q hq => by injection hq with hq; subst hq; exact he.1) h
  | timeout id n d => exact hsm (show K (who id).imsi from he) (fun q hq => by cases hq) h
  | snsmActRsp t n => exact hsm h0 (fun q hq => by cases hq) h
  | snsmDeactRsp t n => exact hsm h0 (fun q hq => by cases hq) h
  | gmm ev =>
    obtain ⟨r, h1, h⟩ := bind_eq_ok.1 h
    obtain ⟨h5, h6⟩ := layer_in (K := K) hi.imsi he h1
    refine sgFold_inv (P := SgInv A K) (f := sgUp cfg ok) _ ⟨s.sm, r.layer⟩ _ _
      (fun z hz s s' o hp hf => sgUp_inv (fun t b hb => ?_) hp hf) ⟨hi.sm, hi.asked, h5⟩ h
    obtain ⟨k1, k2⟩ := h6 z hz t b hb
    refine ⟨k1, k2.resolve_right ?_⟩
    rintro ⟨s2, rfl⟩
    exact hout

theorem sgRun_inv {A : Nat → Nat → Prop} {K : List Nat → Prop} {cfg : GmmCfg} {who : Nat → Ident} {ok : GmmOut → Bool}
    (h0 : K (who 0).imsi) : ∀ (l : List SgEv) (s s' : SmGmm) (o : List SgOut), (∀ e ∈ l, SgEvOk A K who e) →
    (∀ e ∈ l, SgEv.Outside e) → SgInv A K s → sgRun cfg who ok s l = .ok (s', o) → SgInv A K s' ∧ ∀ y ∈ o, SgGood A K y := by
  intro l
  induction l with
  | nil =>
    intro s s' o _ _ hi h
    injection h with h
    injection h with h3 h4
    subst h3 h4
    exact ⟨hi, fun y hy => by cases hy⟩
  | cons e l ih =>
    intro s s' o he hout hi h
    obtain ⟨r, h1, h⟩ := bind_eq_ok.1 h
    obtain ⟨t, h2, h⟩ := bind_eq_ok.1 h
    injection h with h
    injection h with h3 h4
    subst h3 h4
    obtain ⟨p1, q1⟩ := sgStep_inv (o := r.2) (s' := r.1) (he e List.mem_cons_self) (hout e List.mem_cons_self) hi h0 h1
    obtain ⟨p2, q2⟩ := ih r.1 t.1 t.2 (fun x hx => he x (List.mem_cons_of_mem _ hx))
      (fun x hx => hout x (List.mem_cons_of_mem _ hx)) p1 h2
    refine ⟨p2, fun y hy => ?_⟩
    rcases List.mem_append.1 hy with hy | hy
    · exact q1 y hy
    · exact q2 y hy

theorem sg0_inv (A : Nat → Nat → Prop) (K : List Nat → Prop) : SgInv A K sg0 := by
  refine ⟨smInit_inv, fun id n x hx => ?_, fun g hg => by cases hg⟩
  simp [sg0, smInit, SmCtx.slot, freshMs] at hx

theorem isActReq_unique {n m : Nat} {b : Octets} (hn : n < 256) (hm : m < 16) (h1 : IsActReq n b) (h2 : IsActReq m b) :
    n = m := by
  obtain ⟨a, l, rfl, -⟩ := h1
  obtain ⟨a', l', h, -⟩ := h2
  injection h with _ h
  injection h with _ h
  injection h with h _
  have := congrArg UInt8.toNat h
  rw [UInt8.toNat_ofNat', UInt8.toNat_ofNat'] at this
  omega

theorem isActReq_own {n : Nat} {b : Octets} (h : IsActReq n b) : b.head? ≠ some 0x08 := by
  obtain ⟨a, l, rfl, h⟩ := h
  intro h'
  injection h' with h'
  rw [h'] at h
  exact absurd h (by decide)

/-- In every history: an activation request is for an NSAPI some user has asked for. -/
theorem c164_asked (cfg : GmmCfg) (who : Nat → Ident) (ok : GmmOut → Bool) (l : List SgEv) (s : SmGmm) (outs : List SgOut)
    (hout : ∀ e ∈ l, SgEv.Outside e) (h : sgRun cfg who ok sg0 l = .ok (s, outs)) (i : List Nat) (t : Nat) (b : Octets)
    (n : Nat) (hn : n < 256) (hm : SgOut.gmm i (.llUnitdata t b) ∈ outs) (hb : IsActReq n b) :
    ∃ r draws, SgEv.actReq r draws ∈ l ∧ r.nsapi = n := by
  obtain ⟨-, h2⟩ := sgRun_inv (A := fun id m => ∃ r draws, SgEv.actReq r draws ∈ l ∧ r.msId = id ∧ r.nsapi = m)
    (K := fun _ => True) trivial l sg0 s outs (by
      intro e he
      cases e with
      | actReq r d => exact ⟨⟨r, d, he, rfl, rfl⟩, trivial⟩
      | gmm ev => cases ev <;> trivial
      | _ => trivial) hout (sg0_inv _ _) h
  obtain ⟨-, h3⟩ := h2 _ hm i t b rfl
  rcases h3 with h3 | ⟨id, m, ⟨r, d, h4, -, h5⟩, h6, h7⟩
  · exact absurd h3 (isActReq_own hb)
  · exact ⟨r, d, h4, h5.trans (isActReq_unique hn h6 hb h7).symm⟩

/-- **C164** (partial): it holds in every history of a device with one mobile station. -/
theorem c164_partial (cfg : GmmCfg) (who : Nat → Ident) (ok : GmmOut → Bool) (I : List Nat) (l : List SgEv) (s : SmGmm)
    (outs : List SgOut) (hwho : ∀ id, (who id).imsi = I)
    (hone : ∀ p i d prm, SgEv.gmm (.attachReq p i d prm) ∈ l → i = I)
    (hout : ∀ e ∈ l, SgEv.Outside e) (h : sgRun cfg who ok sg0 l = .ok (s, outs)) (i : List Nat) (t : Nat) (b : Octets)
    (n : Nat) (hn : n < 256) (hm : SgOut.gmm i (.llUnitdata t b) ∈ outs) (hb : IsActReq n b) :
    ∃ r draws, SgEv.actReq r draws ∈ l ∧ r.nsapi = n ∧ (who r.msId).imsi = i := by
  obtain ⟨-, h2⟩ := sgRun_inv (A := fun id m => ∃ r draws, SgEv.actReq r draws ∈ l ∧ r.msId = id ∧ r.nsapi = m)
    (K := fun i => i = I) (hwho 0) l sg0 s outs (by
      intro e he
      cases e with
      | actReq r d => exact ⟨⟨r, d, he, rfl, rfl⟩, hwho _⟩
      | timeout id n d => exact hwho id
      | gmm ev =>
        cases ev with
        | attachReq p i d prm => exact hone p i d prm he
        | establishReq s p i d prm => exact (hout _ he).elim
        | _ => trivial
      | _ => trivial) hout (sg0_inv _ _) h
  obtain ⟨h1, h3⟩ := h2 _ hm i t b rfl
  rcases h3 with h3 | ⟨id, m, ⟨r, d, h4, -, h5⟩, h6, h7⟩
  · exact absurd h3 (isActReq_own hb)
  · exact ⟨r, d, h4, h5.trans (isActReq_unique hn h6 hb h7).symm, (hwho _).trans h1.symm⟩

/-! ## C165: what GMM's primitives do to PDP contexts -/

/-- No context there, or one that has ended. -/
def Ended (c : SmCtx) (id n : Nat) : Prop := ∀ x, c.slot id n = some x → x.st = .inactive

theorem sm_order {c c' : SmCtx} {e : SmIn} {o : List SmOut} {rc : Option Errno} (hg : ∃ p, smInOf p = some e)
    (h : smStep c e = .ok (c', o, rc)) : c'.order = c.order := by
  have hd : ∀ {c1 : SmCtx} {id i : Nat} {s : Sme} {ev : SmEv}, c1.order = c.order →
      smDispatch c1 id i s ev [] = .ok (c', o, rc) → c'.order = c.order := by
    intro c1 id i s ev h1 h
    rcases dispatch_ok h with ⟨s', o', -, rfl, -⟩ | ⟨-, rfl, -⟩ <;> exact h1
  have hok : ∀ {c1 : SmCtx} {o1 : List SmOut} {e1 : Option Errno}, c1.order = c.order →
      Res.ok (c1, o1, e1) = Res.ok (c', o, rc) → c'.order = c.order := by
    intro c1 o1 e1 h1 h
    injection h with h
    injection h with h _
    rw [← h]; exact h1
  obtain ⟨p, hp⟩ := hg
  cases e with
  | estAcc sess a g t =>
    simp only [smStep] at h
    rcases withSess_cases h with h | ⟨id, i, s, -, -, -, -, -, h⟩
    · exact hok (by rfl) h.symm
    · exact hd (by rfl) h
  | estRej sess =>
    simp only [smStep] at h
    rcases withSess_cases h with h | ⟨id, i, s, -, -, -, -, -, h⟩
    · exact hok (by rfl) h.symm
    · exact hd (by rfl) h
  | relInd sess =>
    simp only [smStep] at h
    rcases withSess_cases h with h | ⟨id, i, s, -, -, -, -, -, h⟩
    · exact hok (by rfl) h.symm
    · exact hd (by rfl) h
  | unitdataInd sess b =>
    simp only [smStep] at h
    rcases withSess_cases h with h | ⟨id, i, s, -, -, -, -, -, h⟩
    · exact hok (by rfl) h.symm
    · unfold smRx at h
      split at h
      · exact hok (by rfl) h
      · split at h
        · exact hok (by rfl) h
        · cases h
        · split at h
          · split at h
            · exact hd (by rfl) h
            · exact hok (by rfl) h
            · cases h
          · split at h
            · split at h
              · exact hd (by rfl) h
              · exact hok (by rfl) h
              · cases h
            · exact hok (by rfl) h
  | modifyInd sess a g t st =>
    simp only [smStep] at h
    rcases withSess_cases h with h | ⟨id, i, s, -, -, -, -, -, h⟩
    · exact hok (by rfl) h.symm
    · exact hok (by rfl) h
  | _ => cases p <;> cases hp

theorem sm_gmm_keeps {c c' : SmCtx} (hi : SmInv c) {e : SmIn} {o : List SmOut} {rc : Option Errno}
    (hg : ∃ p, smInOf p = some e) (h : smStep c e = .ok (c', o, rc)) (x y : Nat) :
    (c'.slot x y).map Sme.sess = (c.slot x y).map Sme.sess ∧ (Ended c x y → Ended c' x y) := by
  obtain ⟨-, hch, -⟩ := step_change hi h
  unfold Ended
  rcases hch with ⟨hs, -⟩ | ⟨id, i, s', ht, hs⟩
  · rw [hs]; exact ⟨rfl, fun h => h⟩
  · rw [hs]
    by_cases heq : x = id ∧ y = i
    · rw [if_pos heq]
      obtain ⟨rfl, rfl⟩ := heq
      generalize c.slot x y = a at *
      obtain ⟨p, hp⟩ := hg
      cases ht with
      | start r => cases p <;> cases hp
      | keep ev a b o rc hk =>
        refine ⟨by simp [hk.sess], fun h z hz => ?_⟩
        injection hz with hz
        subst hz
        rw [hk.st]; exact h a rfl
      | drop ev a o =>
        refine ⟨rfl, fun h z hz => ?_⟩
        injection hz with hz
        subst hz
        rfl
      | activated t n a => cases p <;> cases hp
      | rejected n q a b z cause h1 hk =>
        refine ⟨by simp [toInactive, hk.sess], fun h z hz => ?_⟩
        injection hz with hz
        subst hz
        rfl
      | gaveUp a => cases p <;> cases hp
      | retry m a => cases p <;> cases hp
      | freed a => cases p <;> cases hp
    · rw [if_neg heq]; exact ⟨rfl, fun h => h⟩

theorem bySess_congr {c c' : SmCtx} (h1 : c'.order = c.order)
    (h2 : ∀ x y, (c'.slot x y).map Sme.sess = (c.slot x y).map Sme.sess) (sess : Nat) : c'.bySess sess = c.bySess sess := by
  have h3 : ∀ id, (c'.ms id).slotOf sess = (c.ms id).slotOf sess := by
    intro id
    unfold SmMs.slotOf
    congr 1
    funext i
    have := h2 id i
    unfold SmCtx.slot at this
    cases ha : (c'.ms id).pdp i <;> cases hb : (c.ms id).pdp i <;> rw [ha, hb] at this
    · cases this
    · cases this
    · simp only [Option.map_some, Option.some.injEq] at this
      dsimp only
      rw [this]
  unfold SmCtx.bySess
  rw [h1]
  congr 1
  funext id
  rw [h3]

/-- GMMSM-RELEASE.ind ends the context of the session. -/
theorem relInd_ends {c c' : SmCtx} {sess id n : Nat} {o : List SmOut} {rc : Option Errno} (hb : c.bySess sess = some (id, n))
    (h : smStep c (.relInd sess) = .ok (c', o, rc)) : Ended c' id n := by
  obtain ⟨-, -, s, hs, -⟩ := bySess_some hb
  simp only [smStep] at h
  unfold withSess at h
  rw [hb] at h
  dsimp only at h
  have hs' : (c.ms id).pdp n = some s := hs
  rw [hs'] at h
  dsimp only at h
  intro x hx
  rcases dispatch_ok h with ⟨s', o', hf, rfl, -⟩ | ⟨hf, rfl, -⟩
  · rw [slot_put, if_pos ⟨rfl, rfl⟩] at hx
    injection hx with hx
    subst hx
    rcases smFsm_some hf with ⟨h1, -⟩ | ⟨-, -, ⟨h1, -⟩ | ⟨h1, -⟩⟩ | ⟨-, rfl, -⟩ | ⟨cause, x, h1, -⟩ | ⟨x, h1, -⟩
    · cases h1
    · cases h1
    · cases h1
    · rfl
    · cases h1
    · cases h1
  · rw [slot_put, if_pos ⟨rfl, rfl⟩] at hx
    injection hx with hx
    subst hx
    cases hst : s.st with
    | inactive => rfl
    | pending => unfold smFsm at hf; rw [hst] at hf; cases hf
    | active => unfold smFsm at hf; rw [hst] at hf; cases hf

theorem sgData_sm {cfg : GmmCfg} {ok : GmmOut → Bool} {s s' : SmGmm} {x : SmOut} {o : List SgOut}
    (h : sgData cfg ok s x = .ok (s', o)) : s'.sm = s.sm := by
  unfold sgData at h
  split at h
  · obtain ⟨r, -, h⟩ := bind_eq_ok.1 h
    injection h with h
    injection h with h _
    rw [← h]
  · injection h with h
    injection h with h _
    rw [← h]

theorem sgUp_sm {cfg : GmmCfg} {ok : GmmOut → Bool} {s s' : SmGmm} {x : List Nat × GmmOut} {o : List SgOut}
    (h : sgUp cfg ok s x = .ok (s', o)) :
    (smInOf x.2 = none ∧ s'.sm = s.sm) ∨ ∃ e q rc, smInOf x.2 = some e ∧ smStep s.sm e = .ok (s'.sm, q, rc) := by
  unfold sgUp at h
  split at h
  · rename_i hn
    injection h with h
    injection h with h _
    rw [← h]
    exact Or.inl ⟨hn, rfl⟩
  · rename_i e he
    obtain ⟨r, h1, h⟩ := bind_eq_ok.1 h
    obtain ⟨h2, -⟩ := sgFold_inv (f := sgData cfg ok) (P := fun z => z.sm = r.1) (Q := fun _ => True) _ ⟨r.1, s.gmm⟩ _ _
      (fun z _ s s' o hp hf => ⟨(sgData_sm hf).trans hp, fun _ _ => trivial⟩) rfl h
    refine Or.inr ⟨e, r.2.1, r.2.2, he, ?_⟩
    rw [h1, h2]

/-- Whatever else GMM hands out at the same time, a release ends the context. -/
theorem sgUp_ends {cfg : GmmCfg} {ok : GmmOut → Bool} {sess id n : Nat} : ∀ (l : List (List Nat × GmmOut)) (s s' : SmGmm)
    (o : List SgOut), SmInv s.sm → s.sm.bySess sess = some (id, n) →
    (Ended s.sm id n ∨ ∃ i, (i, GmmOut.releaseInd sess) ∈ l) → sgFold (sgUp cfg ok) s l = .ok (s', o) → Ended s'.sm id n := by
  intro l
  induction l with
  | nil =>
    intro s s' o _ _ hr h
    injection h with h
    injection h with h _
    subst h
    rcases hr with hr | ⟨i, hr⟩
    · exact hr
    · cases hr
  | cons x l ih =>
    intro s s' o hi hb hr h
    obtain ⟨r, h1, h⟩ := bind_eq_ok.1 h
    obtain ⟨t, h2, h⟩ := bind_eq_ok.1 h
    injection h with h
    injection h with h _
    subst h
    rcases sgUp_sm (s' := r.1) (o := r.2) h1 with ⟨hn, hsm⟩ | ⟨e, q, rc, he, hst⟩
    · refine ih r.1 t.1 t.2 (hsm ▸ hi) (hsm ▸ hb) ?_ h2
      rcases hr with hr | ⟨i, hr⟩
      · exact Or.inl (hsm ▸ hr)
      · rcases List.mem_cons.1 hr with rfl | hr
        · cases hn
        · exact Or.inr ⟨i, hr⟩
    · have hk := sm_gmm_keeps hi ⟨_, he⟩ hst
      refine ih r.1 t.1 t.2 (step_inv hi hst) ?_ ?_ h2
      · rw [bySess_congr (sm_order ⟨_, he⟩ hst) (fun x y => (hk x y).1)]; exact hb
      · rcases hr with hr | ⟨i, hr⟩
        · exact Or.inl ((hk id n).2 hr)
        · rcases List.mem_cons.1 hr with rfl | hr
          · injection he with he
            subst he
            exact Or.inl (relInd_ends hb hst)
          · exact Or.inr ⟨i, hr⟩

/-! ## What GMM hands out when a mobile station is no longer registered -/

theorem mem_released {l : List GmmOut} {s : Nat} (h : s ∈ released l) : GmmOut.releaseInd s ∈ l := by
  induction l with
  | nil => cases h
  | cons o l ih =>
    cases o with
    | releaseInd x =>
      unfold released at h
      rcases List.mem_cons.1 h with rfl | h
      · exact List.mem_cons_self
      · exact List.mem_cons_of_mem _ (ih h)
    | _ => exact List.mem_cons_of_mem _ (ih h)

theorem step_gone {cfg : GmmCfg} {ok : GmmOut → Bool} {g : Gmme} {ev : GmmEv} {r : GmmStep}
    (h : gmmStep cfg ok g ev = .ok r) (he : Engaged g.st) (hd : r.g.st = .dereg) (hs : g.sess ≠ sessUnassigned) :
    GmmOut.releaseInd g.sess ∈ r.out := by
  apply mem_released
  rw [(step_released h).1 (by rintro ⟨t, -, h⟩; exact he.2 h)]
  unfold dueRelease
  rw [if_pos ⟨he, hd, hs⟩]
  exact List.mem_singleton.2 rfl

theorem stepAt_gone {cfg : GmmCfg} {ok : GmmOut → Bool} {L : GmmLayer} {k : Nat} {ev : GmmEv} {r : LayerStep}
    (hn : (L.es.map Gmme.imsi).Nodup) (h : stepAt cfg ok L k ev = .ok r) {g g' : Gmme} (hg : g ∈ L.es)
    (hg' : g' ∈ r.layer.es) (hi : g'.imsi = g.imsi) (he : Engaged g.st) (hd : g'.st = .dereg)
    (hs : g.sess ≠ sessUnassigned) : (g.imsi, GmmOut.releaseInd g.sess) ∈ sgSeen r := by
  unfold stepAt at h
  split at h
  · rename_i x hx
    obtain ⟨y, hy, h⟩ := bind_eq_ok.1 h
    injection h with h; subst h
    rcases List.mem_or_eq_of_mem_set hg' with hm | rfl
    · have := imsi_inj hn hm hg hi
      subst this
      exact absurd hd he.2
    · have : x = g := imsi_inj hn (List.mem_of_getElem? hx) hg ((step_imsi hy).symm.trans hi)
      subst this
      unfold sgSeen
      simp only [List.flatMap_cons, List.flatMap_nil, List.append_nil]
      exact List.mem_map.2 ⟨_, step_gone hy he hd hs, rfl⟩
  · injection h with h; subst h
    have := imsi_inj hn hg' hg hi
    subst this
    exact absurd hd he.2

theorem stepFound_gone {cfg : GmmCfg} {ok : GmmOut → Bool} {L : GmmLayer} {k : Option Nat} {e : Errno} {ev : GmmEv}
    {r : LayerStep} (hn : (L.es.map Gmme.imsi).Nodup) (h : stepFound cfg ok L k e ev = .ok r) {g g' : Gmme} (hg : g ∈ L.es)
    (hg' : g' ∈ r.layer.es) (hi : g'.imsi = g.imsi) (he : Engaged g.st) (hd : g'.st = .dereg)
    (hs : g.sess ≠ sessUnassigned) : (g.imsi, GmmOut.releaseInd g.sess) ∈ sgSeen r := by
  unfold stepFound at h
  split at h
  · exact stepAt_gone hn h hg hg' hi he hd hs
  · injection h with h; subst h
    have := imsi_inj hn hg' hg hi
    subst this
    exact absurd hd he.2

theorem enableAll_gone {cfg : GmmCfg} {ok : GmmOut → Bool} {on : Bool} : ∀ (es : List Gmme), (es.map Gmme.imsi).Nodup →
    ∀ {g g' : Gmme}, g ∈ es → g' ∈ (enableAll cfg ok on es).1 → g'.imsi = g.imsi → Engaged g.st → g'.st = .dereg →
    g.sess ≠ sessUnassigned → ∃ o ∈ (enableAll cfg ok on es).2, o.imsi = g.imsi ∧ GmmOut.releaseInd g.sess ∈ o.obs.out := by
  intro es
  induction es with
  | nil => intro _ g g' h; cases h
  | cons x es ih =>
    intro hn g g' hg hg' hi he hd hs
    have hx : gmmStep cfg ok x (.enable on) = .ok (dispatch cfg ok x [] (if on then .enable else .disable)) := rfl
    rw [List.map_cons, List.nodup_cons] at hn
    rcases List.mem_cons.1 hg with rfl | hg
    · refine ⟨_, List.mem_cons_self, rfl, ?_⟩
      rcases List.mem_cons.1 hg' with rfl | hg'
      · exact step_gone hx he hd hs
      · exfalso
        have : g'.imsi ∈ (enableAll cfg ok on es).1.map Gmme.imsi := List.mem_map.2 ⟨g', hg', rfl⟩
        rw [(enableAll_imsi es).1, hi] at this
        exact hn.1 this
    · rcases List.mem_cons.1 hg' with rfl | hg'
      · exfalso
        rw [step_imsi hx] at hi
        exact hn.1 (hi ▸ List.mem_map.2 ⟨g, hg, rfl⟩)
      · obtain ⟨o, ho, h1, h2⟩ := ih hn.2 hg hg' hi he hd hs
        exact ⟨o, List.mem_cons_of_mem _ ho, h1, h2⟩

theorem findOrCreate_nodup {L : GmmLayer} {p : Nat} {i d : List Nat} (hn : (L.es.map Gmme.imsi).Nodup) :
    ((findOrCreate L p i d).1.es.map Gmme.imsi).Nodup ∧ ∀ g ∈ L.es, g ∈ (findOrCreate L p i d).1.es := by
  unfold findOrCreate
  split
  · exact ⟨hn, fun _ h => h⟩
  · split
    · exact ⟨hn, fun _ h => h⟩
    · rename_i hf
      refine ⟨?_, fun _ h => List.mem_cons_of_mem _ h⟩
      rw [List.map_cons, List.nodup_cons]
      exact ⟨findImsi_none hf, hn⟩

theorem layer_gone {cfg : GmmCfg} {ok : GmmOut → Bool} {L : GmmLayer} {ev : LayerEv} {r : LayerStep}
    (hn : (L.es.map Gmme.imsi).Nodup) (h : layerStep cfg ok L ev = .ok r) {g g' : Gmme} (hg : g ∈ L.es)
    (hg' : g' ∈ r.layer.es) (hi : g'.imsi = g.imsi) (he : Engaged g.st) (hd : g'.st = .dereg)
    (hs : g.sess ≠ sessUnassigned) : (g.imsi, GmmOut.releaseInd g.sess) ∈ sgSeen r := by
  cases ev with
  | enable on =>
    simp only [layerStep] at h
    split at h
    · injection h with h; subst h
      have := imsi_inj hn hg' hg hi
      subst this
      exact absurd hd he.2
    · injection h with h; subst h
      obtain ⟨o, ho, h1, h2⟩ := enableAll_gone (cfg := cfg) (ok := ok) (on := on) L.es hn hg hg' hi he hd hs
      unfold sgSeen
      exact List.mem_flatMap.2 ⟨o, ho, List.mem_map.2 ⟨_, h2, by rw [h1]⟩⟩
  | attachReq p i d prm =>
    obtain ⟨h1, h2⟩ := findOrCreate_nodup (p := p) (i := i) (d := d) hn
    exact stepAt_gone h1 h (h2 g hg) hg' hi he hd hs
  | establishReq s p i d prm =>
    obtain ⟨h1, h2⟩ := findOrCreate_nodup (p := p) (i := i) (d := d) hn
    exact stepAt_gone h1 h (h2 g hg) hg' hi he hd hs
  | detachReq p ty off => exact stepFound_gone hn h hg hg' hi he hd hs
  | simAuthRsp a k x s kc => exact stepFound_gone hn h hg hg' hi he hd hs
  | smUnitdataReq s pdu => exact stepFound_gone hn h hg hg' hi he hd hs
  | pageInd t => exact stepFound_gone hn h hg hg' hi he hd hs
  | llcTransmitted t => exact stepFound_gone hn h hg hg' hi he hd hs
  | rx t b => exact stepFound_gone hn h hg hg' hi he hd hs
  | fsmTimer k => exact stepAt_gone hn h hg hg' hi he hd hs
  | t3314 k => exact stepAt_gone hn h hg hg' hi he hd hs
  | t3312 k => exact stepAt_gone hn h hg hg' hi he hd hs
  | t3316 k => exact stepAt_gone hn h hg hg' hi he hd hs

/-! ## Histories -/

/-- SM's messages leave GMM's entities as they are. -/
theorem data_layer {cfg : GmmCfg} {ok : GmmOut → Bool} {L : GmmLayer} {s : Nat} {b : Octets} {r : LayerStep}
    (h : layerStep cfg ok L (.smUnitdataReq s b) = .ok r) : r.layer = L := by
  simp only [layerStep] at h
  unfold stepFound at h
  split at h
  · unfold stepAt at h
    split at h
    · rename_i g hg
      obtain ⟨y, hy, h⟩ := bind_eq_ok.1 h
      injection hy with hy
      subst hy
      injection h with h; subst h
      obtain ⟨hlt, hget⟩ := List.getElem?_eq_some_iff.1 hg
      show GmmLayer.mk L.enabled (L.es.set _ g) = L
      rw [← hget, List.set_getElem_self]
    · injection h with h; subst h; rfl
  · injection h with h; subst h; rfl

theorem sgData_gmm {cfg : GmmCfg} {ok : GmmOut → Bool} {s s' : SmGmm} {x : SmOut} {o : List SgOut}
    (h : sgData cfg ok s x = .ok (s', o)) : s'.gmm = s.gmm := by
  unfold sgData at h
  split at h
  · obtain ⟨r, h1, h⟩ := bind_eq_ok.1 h
    injection h with h
    injection h with h _
    rw [← h]
    exact data_layer h1
  · injection h with h
    injection h with h _
    rw [← h]

theorem sgUp_gmm {cfg : GmmCfg} {ok : GmmOut → Bool} {s s' : SmGmm} {x : List Nat × GmmOut} {o : List SgOut}
    (h : sgUp cfg ok s x = .ok (s', o)) : s'.gmm = s.gmm := by
  unfold sgUp at h
  split at h
  · injection h with h
    injection h with h _
    rw [← h]
  · obtain ⟨r, -, h⟩ := bind_eq_ok.1 h
    exact (sgFold_inv (f := sgData cfg ok) (P := fun z => z.gmm = s.gmm) (Q := fun _ => True) _ ⟨r.1, s.gmm⟩ _ _
      (fun z _ s s' o hp hf => ⟨(sgData_gmm hf).trans hp, fun _ _ => trivial⟩) rfl h).1

theorem sgUps_gmm {cfg : GmmCfg} {ok : GmmOut → Bool} {s s' : SmGmm} {l : List (List Nat × GmmOut)} {o : List SgOut}
    (h : sgFold (sgUp cfg ok) s l = .ok (s', o)) : s'.gmm = s.gmm :=
  (sgFold_inv (f := sgUp cfg ok) (P := fun z => z.gmm = s.gmm) (Q := fun _ => True) _ s _ _
    (fun z _ s s' o hp hf => ⟨(sgUp_gmm hf).trans hp, fun _ _ => trivial⟩) rfl h).1

/-- What GMM keeps, both layers keep. -/
theorem sgStep_layer {P : GmmLayer → Prop}
    (hP : ∀ cfg ok L ev r, P L → layerStep cfg ok L ev = .ok r → P r.layer) {cfg : GmmCfg} {who : Nat → Ident}
    {ok : GmmOut → Bool} {s s' : SmGmm} {e : SgEv} {o : List SgOut} (hs : P s.gmm)
    (h : sgStep cfg who ok s e = .ok (s', o)) : P s'.gmm := by
  have hsm : ∀ {w : Ident} {draws : List Nat} {i : SmIn}, sgSm cfg ok w draws s i = .ok (s', o) → P s'.gmm := by
    intro w draws i h
    obtain ⟨r, -, h⟩ := bind_eq_ok.1 h
    refine (sgFold_inv (f := sgDown cfg ok w draws) (P := fun z => P z.gmm) (Q := fun _ => True) _ ⟨r.1, s.gmm⟩ _ _
      (fun _ _ _ _ _ hp hf => ⟨?_, fun _ _ => trivial⟩) hs h).1
    unfold sgDown at hf
    split at hf
    · obtain ⟨r, h1, hf⟩ := bind_eq_ok.1 hf
      rw [sgUps_gmm hf]
      exact hP _ _ _ _ _ hp h1
    · rw [sgData_gmm hf]; exact hp
  cases e with
  | gmm ev =>
    obtain ⟨r, h1, h⟩ := bind_eq_ok.1 h
    rw [sgUps_gmm h]
    exact hP _ _ _ _ _ hs h1
  | _ => exact hsm h

theorem sgRun_layer {P : GmmLayer → Prop}
    (hP : ∀ cfg ok L ev r, P L → layerStep cfg ok L ev = .ok r → P r.layer) {cfg : GmmCfg} {who : Nat → Ident}
    {ok : GmmOut → Bool} : ∀ (l : List SgEv) (s s' : SmGmm) (o : List SgOut), P s.gmm →
    sgRun cfg who ok s l = .ok (s', o) → P s'.gmm := by
  intro l
  induction l with
  | nil =>
    intro s s' o hs h
    injection h with h
    injection h with h _
    subst h
    exact hs
  | cons e l ih =>
    intro s s' o hs h
    obtain ⟨r, h1, h⟩ := bind_eq_ok.1 h
    obtain ⟨t, h2, h⟩ := bind_eq_ok.1 h
    injection h with h
    injection h with h _
    subst h
    exact ih r.1 t.1 t.2 (sgStep_layer hP (s' := r.1) (o := r.2) hs h1) h2

theorem layer_nodup (cfg : GmmCfg) (ok : GmmOut → Bool) (L : GmmLayer) (ev : LayerEv) (r : LayerStep)
    (hn : (L.es.map Gmme.imsi).Nodup) (h : layerStep cfg ok L ev = .ok r) : (r.layer.es.map Gmme.imsi).Nodup := by
  have hat : ∀ {L : GmmLayer} {k : Nat} {ev : GmmEv}, (L.es.map Gmme.imsi).Nodup → stepAt cfg ok L k ev = .ok r →
      (r.layer.es.map Gmme.imsi).Nodup := by
    intro L k ev hn h
    unfold stepAt at h
    split at h
    · rename_i g hg
      obtain ⟨y, hy, h⟩ := bind_eq_ok.1 h
      injection h with h; subst h
      show ((L.es.set k y.g).map Gmme.imsi).Nodup
      rw [List.map_set, step_imsi hy]
      obtain ⟨hlt, hget⟩ := List.getElem?_eq_some_iff.1 hg
      have : (L.es.map Gmme.imsi).set k g.imsi = L.es.map Gmme.imsi := by
        have hk : (L.es.map Gmme.imsi)[k]'(by rw [List.length_map]; exact hlt) = g.imsi := by rw [List.getElem_map, hget]
        rw [← hk, List.set_getElem_self]
      rw [this]; exact hn
    · injection h with h; subst h; exact hn
  have hf : ∀ {k : Option Nat} {e : Errno} {ev : GmmEv}, stepFound cfg ok L k e ev = .ok r →
      (r.layer.es.map Gmme.imsi).Nodup := by
    intro k e ev h
    unfold stepFound at h
    split at h
    · exact hat hn h
    · injection h with h; subst h; exact hn
  cases ev with
  | enable on =>
    simp only [layerStep] at h
    split at h
    · injection h with h; subst h; exact hn
    · injection h with h; subst h
      show ((enableAll cfg ok on L.es).1.map Gmme.imsi).Nodup
      rw [(enableAll_imsi L.es).1]; exact hn
  | attachReq p i d prm => exact hat (findOrCreate_nodup hn).1 h
  | establishReq s p i d prm => exact hat (findOrCreate_nodup hn).1 h
  | detachReq p ty off => exact hf h
  | simAuthRsp a k x s kc => exact hf h
  | smUnitdataReq s pdu => exact hf h
  | pageInd t => exact hf h
  | llcTransmitted t => exact hf h
  | rx t b => exact hf h
  | fsmTimer k => exact hat hn h
  | t3314 k => exact hat hn h
  | t3312 k => exact hat hn h
  | t3316 k => exact hat hn h

/-- **C165** (partial): in every history, when a mobile station is no longer registered, the PDP context whose session
GMM has for it ends. -/
theorem c165_partial (cfg : GmmCfg) (who : Nat → Ident) (ok ok' : GmmOut → Bool) (l : List SgEv) (s s' : SmGmm)
    (outs outs' : List SgOut) (hout : ∀ e ∈ l, SgEv.Outside e) (h : sgRun cfg who ok sg0 l = .ok (s, outs)) (ev : LayerEv)
    (h' : sgStep cfg who ok' s (.gmm ev) = .ok (s', outs')) (g g' : Gmme) (hg : g ∈ s.gmm.es) (hg' : g' ∈ s'.gmm.es)
    (hi : g'.imsi = g.imsi) (he : Engaged g.st) (hd : g'.st = .dereg) (hs : g.sess ≠ sessUnassigned) (id n : Nat)
    (hb : s.sm.bySess g.sess = some (id, n)) : ∀ x, s'.sm.slot id n = some x → x.st = .inactive := by
  obtain ⟨hinv, -⟩ := sgRun_inv (A := fun _ _ => True) (K := fun _ => True) trivial l sg0 s outs (by
      intro e he
      cases e with
      | actReq r d => exact ⟨trivial, trivial⟩
      | gmm ev => cases ev <;> trivial
      | _ => trivial) hout (sg0_inv _ _) h
  have hn := sgRun_layer (P := fun L => (L.es.map Gmme.imsi).Nodup) layer_nodup l sg0 s outs List.nodup_nil h
  obtain ⟨r, h1, h2⟩ := bind_eq_ok.1 h'
  have hl : s'.gmm = r.layer := sgUps_gmm h2
  rw [hl] at hg'
  exact sgUp_ends _ ⟨s.sm, r.layer⟩ _ _ hinv.sm hb (Or.inr ⟨_, layer_gone hn h1 hg hg' hi he hd hs⟩) h2

/-- The hypotheses of `c165_partial` are met: one PDP context, active, and the mobile station is switched off. -/
example :
    let s := sgState (sgRun defaultCfg sgWho yes sg0
      (activation (sgReq 0 5 0xc0000001) [] 1 0x4a 4 [0x62, 0xf2, 0x20, 0, 1, 0] 0xc0000005 3 4 [0, 0, 0]))
    let s' := sgState (sgStep defaultCfg sgWho yes s (.gmm (.detachReq 0xc0000005 1 true)))
    s.gmm.es.map (fun g => (g.imsi, g.st, g.sess)) = [((sgWho 0).imsi, .reg, 0)] ∧
    s'.gmm.es.map (fun g => (g.imsi, g.st, g.sess)) = [((sgWho 0).imsi, .dereg, 0)] ∧
    s.sm.bySess 0 = some (0, 5) ∧ (s.sm.slot 0 5).map Sme.st = some .active ∧
    (s'.sm.slot 0 5).map Sme.st = some .inactive := by decide +kernel

/-- The hypotheses of `c164_partial` are met: one mobile station asks for a PDP context and the request is sent. -/
example :
    let o := sgOuts (sgRun defaultCfg (fun _ => sgWho 0) yes sg0
      (activation (sgReq 0 5 0xc0000001) [] 1 0x4a 4 [0x62, 0xf2, 0x20, 0, 1, 0] 0xc0000005 3 4 [0, 0, 0]))
    SgOut.gmm (sgWho 0).imsi (.llUnitdata 0xc0000005 [138, 65, 5, 3, 3, 0, 0, 0, 2, 1, 33]) ∈ o := by decide +kernel

end Verif.Props
