import Verif.Gmm.Layer
import Verif.Props.GmmProc
import Mathlib.Data.List.Nodup
/-!
# C158 to C160: several mobile stations
-/
namespace Verif.Props
open Verif Verif.Gmm

/-- The layer after a history that began with its initialization. -/
def LayerReach (cfg : GmmCfg) (L : GmmLayer) (t : List LayerObs) : Prop :=
  ∃ l : List LayerIn, layerRun cfg gmmLayer0 l = .ok (L, t)

/-- What was seen of one mobile station. -/
def historyOf (imsi : List Nat) (t : List LayerObs) : List GmmObs :=
  (t.filter fun o => decide (o.imsi = imsi)).map LayerObs.obs

theorem historyOf_append (i : List Nat) (s t : List LayerObs) :
    historyOf i (s ++ t) = historyOf i s ++ historyOf i t := by
  simp [historyOf]

theorem historyOf_other {i : List Nat} {t : List LayerObs} (h : ∀ o ∈ t, o.imsi ≠ i) : historyOf i t = [] := by
  unfold historyOf
  rw [List.filter_eq_nil_iff.2 (fun o ho => by simpa using h o ho)]
  rfl

/-! ## What an event does to the names of an entity -/

/-- The names of an entity. -/
def namesOf (g : Gmme) : List Nat × Nat × Nat × Nat × Nat := (g.imsi, g.tlli, g.oldTlli, g.ptmsi, g.oldPtmsi)

theorem t3312Start_names (g : Gmme) : namesOf (t3312Start g) = namesOf g := by
  unfold t3312Start; split <;> rfl

theorem readyStop_names (g : Gmme) : namesOf (readyStop g) = namesOf g := by
  unfold readyStop
  split
  · rw [t3312Start_names]; rfl
  · rfl

theorem layer_fsm_names {cfg : GmmCfg} {ok : GmmOut → Bool} {g : Gmme} {ev : FsmEv} {y : Gmme × List GmmOut}
    (h : gmmFsm cfg ok g ev = some y) : namesOf y.1 = namesOf g := by
  have k1 : namesOf (startAttach cfg ok g).1 = namesOf g := by
    unfold startAttach
    split
    · rfl
    · dsimp only; split <;> rfl
  have k2 : namesOf (startRau cfg ok g).1 = namesOf g := by unfold startRau; dsimp only; split <;> rfl
  have k3 : ∀ c, namesOf (rauRejectedAct g c).1 = namesOf g := by
    intro c; unfold rauRejectedAct; split <;> rfl
  unfold gmmFsm at h
  split at h <;> first
    | (cases h; first | rfl | exact k1 | exact k2 | exact k3 _)
    | cases h

/-- What the names keep when the network allocates a P-TMSI and when it accepts a detach, they keep
always. -/
theorem names_closed (cfg : GmmCfg) (Q : List Nat × Nat × Nat × Nat × Nat → Prop)
    (h1 : ∀ g p, Q (namesOf g) → Q (namesOf (updatePtmsi g p)))
    (h2 : ∀ g : Gmme, Q (namesOf g) → Q (namesOf { g with oldTlli := g.tlli, tlli := tlliUnassigned })) :
    Closed cfg (fun g => Q (namesOf g)) True where
  sig g n p := p
  ready g n p := by
    unfold readyNegotiated
    split
    · rw [t3312Start_names, readyStop_names]; exact p
    · exact p
  ptmsi g q p := h1 g q p
  ra g y p := p
  fixed g t f ra p := by
    unfold applyFixed
    have h3 : namesOf (if tmrAssigned t = 0 then t3312Stop { g with t3312s := 0 }
        else { g with t3312s := tmrAssigned t }) = namesOf g := by split <;> rfl
    generalize (if tmrAssigned t = 0 then t3312Stop { g with t3312s := 0 }
        else { g with t3312s := tmrAssigned t }) = y at h3 ⊢
    have h4 : namesOf (if f then readyStop y else y) = namesOf y := by
      split
      · exact readyStop_names y
      · rfl
    generalize (if f then readyStop y else y) = z at h4 ⊢
    have h5 : namesOf { z with ra := ra } = namesOf z := rfl
    rw [h5, h4, h3]; exact p
  npdu g b v p := p
  pdp g s p := p
  standby g p := by rw [readyStop_names]; exact p
  sends g p := by unfold readyStart; split <;> exact p
  detached g p := h2 g p
  auth g _ _ _ _ _ p _ _ := p
  noAuth g p _ := p
  kc g y p := p
  stop3316 g p := p
  start3316 g p := by unfold t3316Start; split <;> exact p
  prm g q p := p
  att g t w e i p := p
  det g t p := p
  sess g s p := p
  attCount g n p := p
  rauCount g n p := p
  exp3314 g p _ := by rw [t3312Start_names]; exact p
  exp3312 g p := p
  exp3316 g p _ := p
  fsm ok g ev y _ p h := by rw [layer_fsm_names h]; exact p

/-- The IMSI of an entity never changes. -/
theorem step_imsi {cfg : GmmCfg} {ok : GmmOut → Bool} {g : Gmme} {ev : GmmEv} {r : GmmStep}
    (h : gmmStep cfg ok g ev = .ok r) : r.g.imsi = g.imsi :=
  (names_closed cfg (fun n => n.1 = g.imsi) (fun _ _ p => p) (fun _ p => p)).step g ok ev r rfl h

/-! ## C158: mobile stations do not disturb each other -/

theorem gmmRun_snoc {cfg : GmmCfg} {i : GmmIn} {r : GmmStep} : ∀ (l : List GmmIn) (g0 g : Gmme) (t : List GmmObs),
    gmmRun cfg g0 l = .ok (g, t) → gmmStep cfg i.ok g i.ev = .ok r →
    gmmRun cfg g0 (l ++ [i]) = .ok (r.g, t ++ [⟨i.ev, r.out, r.rc⟩]) := by
  intro l
  induction l with
  | nil =>
    intro g0 g t h hr
    obtain ⟨rfl, rfl⟩ := gmmRun_nil h
    simp [gmmRun, hr]
  | cons j l ih =>
    intro g0 g t h hr
    obtain ⟨r', t', h1, h2, rfl⟩ := gmmRun_cons h
    have := ih _ _ _ h2 hr
    simp only [List.cons_append, gmmRun, h1, Res.bind_ok, this]

theorem reach_snoc {cfg : GmmCfg} {g : Gmme} {t : List GmmObs} {ok : GmmOut → Bool} {ev : GmmEv} {r : GmmStep}
    (h : GmmReach cfg g t) (hr : gmmStep cfg ok g ev = .ok r) :
    GmmReach cfg r.g (t ++ [⟨ev, r.out, r.rc⟩]) := by
  obtain ⟨en, p, x, i, l, h⟩ := h
  exact ⟨en, p, x, i, l ++ [⟨ev, ok⟩], gmmRun_snoc l _ _ _ h hr⟩

/-- The invariant: the IMSIs differ; nothing was seen of others; each entity has a history of its own. -/
structure LayerInv (cfg : GmmCfg) (L : GmmLayer) (t : List LayerObs) : Prop where
  nodup : (L.es.map Gmme.imsi).Nodup
  known : ∀ o ∈ t, o.imsi ∈ L.es.map Gmme.imsi
  own   : ∀ g ∈ L.es, GmmReach cfg g (historyOf g.imsi t)

theorem imsi_inj {es : List Gmme} (h : (es.map Gmme.imsi).Nodup) {g k : Gmme} (hg : g ∈ es) (hk : k ∈ es)
    (e : g.imsi = k.imsi) : g = k := List.inj_on_of_nodup_map h hg hk e

theorem stepAt_inv {cfg : GmmCfg} {ok : GmmOut → Bool} {L : GmmLayer} {t : List LayerObs} {k : Nat} {ev : GmmEv}
    {r : LayerStep} (hi : LayerInv cfg L t) (h : stepAt cfg ok L k ev = .ok r) :
    LayerInv cfg r.layer (t ++ r.seen) := by
  unfold stepAt at h
  split at h
  · rename_i g hg
    obtain ⟨s, hs, h⟩ := bind_eq_ok.1 h
    injection h with h; subst h
    have him := step_imsi hs
    have hmem : g ∈ L.es := List.mem_of_getElem? hg
    have hmap : (L.es.set k s.g).map Gmme.imsi = L.es.map Gmme.imsi := by
      rw [List.map_set, him]
      refine List.ext_getElem? (fun j => ?_)
      rw [List.getElem?_set]
      split
      · rename_i e
        subst e
        rw [List.getElem?_map, hg]
        have : k < L.es.length := (List.getElem?_eq_some_iff.1 hg).1
        simp [this]
      · rfl
    refine ⟨by rw [hmap]; exact hi.nodup, ?_, ?_⟩
    · intro o ho
      show o.imsi ∈ (L.es.set k s.g).map Gmme.imsi
      rw [hmap]
      rcases List.mem_append.1 ho with ho | ho
      · exact hi.known o ho
      · rw [List.mem_singleton] at ho; subst ho
        exact List.mem_map.2 ⟨g, hmem, rfl⟩
    · intro x hx
      change x ∈ L.es.set k s.g at hx
      rw [historyOf_append]
      obtain ⟨j, hj⟩ := List.mem_iff_getElem?.1 hx
      rw [List.getElem?_set] at hj
      split at hj
      · split at hj
        · injection hj with hj; subst hj
          have e : historyOf s.g.imsi [⟨g.imsi, ⟨ev, s.out, s.rc⟩⟩] = [⟨ev, s.out, s.rc⟩] := by
            simp [historyOf, him]
          rw [e, him]
          exact reach_snoc (hi.own g hmem) hs
        · cases hj
      · rename_i hne
        have hxm : x ∈ L.es := List.mem_of_getElem? hj
        have hd : g.imsi ≠ x.imsi := by
          intro e
          have he : (L.es.map Gmme.imsi)[k]? = (L.es.map Gmme.imsi)[j]? := by
            rw [List.getElem?_map, List.getElem?_map, hg, hj]
            exact congrArg some e
          have hk : k < (L.es.map Gmme.imsi).length := by
            rw [List.length_map]; exact (List.getElem?_eq_some_iff.1 hg).1
          have hj' : j < (L.es.map Gmme.imsi).length := by
            rw [List.length_map]; exact (List.getElem?_eq_some_iff.1 hj).1
          rw [List.getElem?_eq_getElem hk, List.getElem?_eq_getElem hj'] at he
          exact hne ((List.Nodup.getElem_inj_iff hi.nodup).1 (Option.some.inj he))
        rw [historyOf_other (t := [_]) (fun o ho => by
          rw [List.mem_singleton] at ho; subst ho; exact hd), List.append_nil]
        exact hi.own x hxm
  · injection h with h; subst h
    rw [List.append_nil]; exact hi

theorem stepFound_inv {cfg : GmmCfg} {ok : GmmOut → Bool} {L : GmmLayer} {t : List LayerObs} {k : Option Nat}
    {e : Errno} {ev : GmmEv} {r : LayerStep} (hi : LayerInv cfg L t) (h : stepFound cfg ok L k e ev = .ok r) :
    LayerInv cfg r.layer (t ++ r.seen) := by
  unfold stepFound at h
  split at h
  · exact stepAt_inv hi h
  · injection h with h; subst h
    rw [List.append_nil]; exact hi

theorem findImsi_none {es : List Gmme} {i : List Nat} (h : findImsi es i = none) : i ∉ es.map Gmme.imsi := by
  unfold findImsi at h
  rw [List.findIdx?_eq_none_iff] at h
  intro hm
  obtain ⟨g, hg, e⟩ := List.mem_map.1 hm
  have := h g hg
  simp [e] at this

theorem findOrCreate_inv {cfg : GmmCfg} {L : GmmLayer} {t : List LayerObs} {p : Nat} {i d : List Nat}
    (hi : LayerInv cfg L t) : LayerInv cfg (findOrCreate L p i d).1 t := by
  unfold findOrCreate
  split
  · exact hi
  · split
    · exact hi
    · rename_i hn
      have hn := findImsi_none hn
      refine ⟨?_, fun o ho => ?_, fun g hg => ?_⟩
      · show ((gmmeAlloc L.enabled p i (randTlli L.es d) :: L.es).map Gmme.imsi).Nodup
        rw [List.map_cons, List.nodup_cons]
        exact ⟨hn, hi.nodup⟩
      · exact List.mem_cons_of_mem _ (hi.known o ho)
      · rcases List.mem_cons.1 hg with rfl | hg
        · have : historyOf i t = [] := historyOf_other (fun o ho e => hn (e ▸ hi.known o ho))
          show GmmReach cfg _ (historyOf i t)
          rw [this]
          exact ⟨L.enabled, p, randTlli L.es d, i, [], rfl⟩
        · exact hi.own g hg

theorem enableAll_imsi {cfg : GmmCfg} {ok : GmmOut → Bool} {on : Bool} (es : List Gmme) :
    (enableAll cfg ok on es).1.map Gmme.imsi = es.map Gmme.imsi ∧
    (enableAll cfg ok on es).2.map LayerObs.imsi = es.map Gmme.imsi := by
  induction es with
  | nil => exact ⟨rfl, rfl⟩
  | cons g es ih =>
    have := step_imsi (cfg := cfg) (ok := ok) (g := g) (ev := .enable on) rfl
    exact ⟨by simp only [enableAll, List.map_cons, ih.1]; rw [this], by simp only [enableAll, List.map_cons, ih.2]⟩

theorem enableAll_own {cfg : GmmCfg} {ok : GmmOut → Bool} {on : Bool} (es : List Gmme)
    (hn : (es.map Gmme.imsi).Nodup) (x : Gmme) (hx : x ∈ (enableAll cfg ok on es).1) :
    ∃ g ∈ es, ∃ r, gmmStep cfg ok g (.enable on) = .ok r ∧ x = r.g ∧ g.imsi = x.imsi ∧
      historyOf x.imsi (enableAll cfg ok on es).2 = [⟨.enable on, r.out, r.rc⟩] := by
  induction es with
  | nil => cases hx
  | cons g es ih =>
    rw [List.map_cons, List.nodup_cons] at hn
    have him := step_imsi (cfg := cfg) (ok := ok) (g := g) (ev := .enable on) rfl
    have hsplit : (enableAll cfg ok on (g :: es)).2 = [⟨g.imsi, ⟨.enable on,
        (dispatch cfg ok g [] (if on then .enable else .disable)).out,
        (dispatch cfg ok g [] (if on then .enable else .disable)).rc⟩⟩] ++ (enableAll cfg ok on es).2 := rfl
    rcases List.mem_cons.1 hx with rfl | hx
    · refine ⟨g, List.mem_cons_self, _, rfl, rfl, him.symm, ?_⟩
      rw [hsplit, historyOf_append]
      have h1 : historyOf (dispatch cfg ok g [] (if on then .enable else .disable)).g.imsi
          (enableAll cfg ok on es).2 = [] := by
        refine historyOf_other (fun o ho e => hn.1 ?_)
        rw [← (enableAll_imsi (cfg := cfg) (ok := ok) (on := on) es).2]
        exact List.mem_map.2 ⟨o, ho, e.trans him⟩
      rw [h1, List.append_nil]
      simp only [historyOf]
      rw [List.filter_cons_of_pos (by simpa using him.symm)]
      rfl
    · obtain ⟨k, hk, r, h1, h2, h3, h4⟩ := ih hn.2 hx
      refine ⟨k, List.mem_cons_of_mem _ hk, r, h1, h2, h3, ?_⟩
      rw [hsplit, historyOf_append, h4]
      rw [historyOf_other (t := [_]) (fun o ho e => ?_)]
      · rfl
      · rw [List.mem_singleton] at ho; subst ho
        exact hn.1 (List.mem_map.2 ⟨k, hk, h3.trans e.symm⟩)

theorem layerStep_inv {cfg : GmmCfg} {ok : GmmOut → Bool} {L : GmmLayer} {t : List LayerObs} {ev : LayerEv}
    {r : LayerStep} (hi : LayerInv cfg L t) (h : layerStep cfg ok L ev = .ok r) :
    LayerInv cfg r.layer (t ++ r.seen) := by
  cases ev with
  | enable on =>
    simp only [layerStep] at h
    split at h
    · injection h with h; subst h; rw [List.append_nil]; exact hi
    · injection h with h; subst h
      have hm := enableAll_imsi (cfg := cfg) (ok := ok) (on := on) L.es
      refine ⟨?_, fun o ho => ?_, fun x hx => ?_⟩
      · show ((enableAll cfg ok on L.es).1.map Gmme.imsi).Nodup
        rw [hm.1]; exact hi.nodup
      · show o.imsi ∈ (enableAll cfg ok on L.es).1.map Gmme.imsi
        rw [hm.1]
        rcases List.mem_append.1 ho with ho | ho
        · exact hi.known o ho
        · rw [← hm.2]; exact List.mem_map.2 ⟨o, ho, rfl⟩
      · obtain ⟨g, hg, r, h1, h2, h3, h4⟩ := enableAll_own L.es hi.nodup x hx
        show GmmReach cfg x (historyOf x.imsi (t ++ (enableAll cfg ok on L.es).2))
        rw [historyOf_append, h4, ← h3, h2]
        exact reach_snoc (hi.own g hg) h1
  | attachReq p i d prm => exact stepAt_inv (findOrCreate_inv hi) h
  | establishReq s p i d prm => exact stepAt_inv (findOrCreate_inv hi) h
  | detachReq p ty off => exact stepFound_inv hi h
  | simAuthRsp a k x s c => exact stepFound_inv hi h
  | smUnitdataReq s pdu => exact stepFound_inv hi h
  | pageInd t => exact stepFound_inv hi h
  | llcTransmitted t => exact stepFound_inv hi h
  | rx t b => exact stepFound_inv hi h
  | fsmTimer k => exact stepAt_inv hi h
  | t3314 k => exact stepAt_inv hi h
  | t3312 k => exact stepAt_inv hi h
  | t3316 k => exact stepAt_inv hi h

theorem layerRun_inv {cfg : GmmCfg} : ∀ (l : List LayerIn) (L L' : GmmLayer) (t t' : List LayerObs),
    LayerInv cfg L t → layerRun cfg L l = .ok (L', t') → LayerInv cfg L' (t ++ t') := by
  intro l
  induction l with
  | nil =>
    intro L L' t t' hi h
    unfold layerRun at h
    injection h with h; injection h with h1 h2
    subst h1; subst h2
    rw [List.append_nil]; exact hi
  | cons i l ih =>
    intro L L' t t' hi h
    unfold layerRun at h
    obtain ⟨r, hr, h⟩ := bind_eq_ok.1 h
    obtain ⟨x, hx, h⟩ := bind_eq_ok.1 h
    injection h with h; injection h with h1 h2
    subst h1; subst h2
    rw [← List.append_assoc]
    exact ih _ _ _ _ (layerStep_inv hi hr) hx

theorem reach_inv {cfg : GmmCfg} {L : GmmLayer} {t : List LayerObs} (h : LayerReach cfg L t) : LayerInv cfg L t := by
  obtain ⟨l, h⟩ := h
  have : LayerInv cfg gmmLayer0 [] := ⟨List.nodup_nil, fun _ h => (by cases h), fun _ h => (by cases h)⟩
  exact layerRun_inv l _ _ [] _ this h

/-- **C158**: in every history of the layer, there is at most one entity for each IMSI, and what was seen
of each mobile station is a history of a mobile station alone: what is proved of those holds of it,
whatever happens to the others. -/
theorem c158_independent {cfg : GmmCfg} {L : GmmLayer} {t : List LayerObs} (h : LayerReach cfg L t) :
    (L.es.map Gmme.imsi).Nodup ∧ ∀ g ∈ L.es, GmmReach cfg g (historyOf g.imsi t) :=
  ⟨(reach_inv h).nodup, (reach_inv h).own⟩

/-! ## C159: events reach the mobile station they are for -/

/-- The mobile station is the one the event names, by what is in force at the time: the IMSI in requests
for registration, the P-TMSI in a request to detach, the session, the TLLI, the challenge. -/
def IsFor (ev : LayerEv) (g : Gmme) : Prop :=
  match ev with
  | .attachReq _ i _ _ => g.imsi = i
  | .establishReq _ _ i _ _ => g.imsi = i
  | .detachReq p _ _ => g.ptmsi = p
  | .simAuthRsp a k x _ _ => g.acRef = a ∧ g.keySeq = k ∧ g.rand = x
  | .smUnitdataReq s _ => g.sess = s
  | .pageInd t => g.tlli = t
  | .llcTransmitted t => g.tlli = t
  | .rx t _ => g.tlli = t
  | _ => False

/-- What the event is to the mobile station. -/
def evAt : LayerEv → GmmEv
  | .enable on => .enable on
  | .attachReq _ _ _ prm => .attachReq prm
  | .establishReq s _ _ _ prm => .establishReq s prm
  | .detachReq _ ty off => .detachReq ty off
  | .simAuthRsp a k x s c => .simAuthRsp a k x s c
  | .smUnitdataReq _ pdu => .smUnitdataReq pdu
  | .pageInd _ => .pageInd
  | .llcTransmitted _ => .llcTransmitted
  | .rx _ b => .rx b
  | .fsmTimer _ => .fsmTimer
  | .t3314 _ => .t3314
  | .t3312 _ => .t3312
  | .t3316 _ => .t3316

/-- The event reached the mobile station and nobody else. -/
def Reached (L : GmmLayer) (ev : LayerEv) (g : Gmme) (r : LayerStep) : Prop :=
  (∃ o, r.seen = [o] ∧ o.imsi = g.imsi ∧ o.obs.ev = evAt ev) ∧
  (∀ h ∈ L.es, h ≠ g → h ∈ r.layer.es) ∧ r.layer.es.length = L.es.length

/-- **C159**, full statement.  In every history, an event that is for exactly one mobile station reaches
it. -/
def C159Statement : Prop :=
  ∀ cfg L t, LayerReach cfg L t → ∀ g ∈ L.es, ∀ ok ev r, IsFor ev g → (∀ h ∈ L.es, IsFor ev h → h = g) →
    layerStep cfg ok L ev = .ok r → Reached L ev g r

/-- The name of the event is one that the mobile station had before, or, in a request for registration, one
that takes precedence over the IMSI. -/
def Formerly (ev : LayerEv) (g : Gmme) : Prop :=
  match ev with
  | .attachReq p _ _ _ => p ≠ reservedTmsi ∧ (g.ptmsi = p ∨ g.oldPtmsi = p)
  | .establishReq _ p _ _ _ => p ≠ reservedTmsi ∧ (g.ptmsi = p ∨ g.oldPtmsi = p)
  | .detachReq p _ _ => g.oldPtmsi = p
  | .pageInd t => g.oldTlli = t
  | .llcTransmitted t => g.oldTlli = t
  | .rx t _ => g.oldTlli = t
  | _ => False

theorem findIdx_only {es : List Gmme} {f : Gmme → Bool} {g : Gmme} (hg : g ∈ es) (hf : f g = true)
    (ho : ∀ h ∈ es, f h = true → h = g) : ∃ k, es.findIdx? f = some k ∧ es[k]? = some g := by
  cases hk : es.findIdx? f with
  | none =>
    rw [List.findIdx?_eq_none_iff] at hk
    have := hk g hg
    rw [hf] at this; cases this
  | some k =>
    obtain ⟨hlt, hp, _⟩ := List.findIdx?_eq_some_iff_getElem.1 hk
    exact ⟨k, rfl, by rw [List.getElem?_eq_getElem hlt, ho _ (List.getElem_mem hlt) hp]⟩

theorem stepAt_reached {cfg : GmmCfg} {ok : GmmOut → Bool} {L : GmmLayer} {k : Nat} {g : Gmme} {ev : LayerEv}
    {r : LayerStep} (hg : L.es[k]? = some g) (h : stepAt cfg ok L k (evAt ev) = .ok r) : Reached L ev g r := by
  unfold stepAt at h
  rw [hg] at h
  obtain ⟨s, hs, h⟩ := bind_eq_ok.1 h
  injection h with h; subst h
  refine ⟨⟨_, rfl, rfl, rfl⟩, fun x hx hne => ?_, List.length_set⟩
  obtain ⟨j, hj⟩ := List.mem_iff_getElem?.1 hx
  refine List.mem_iff_getElem?.2 ⟨j, ?_⟩
  show (L.es.set k s.g)[j]? = some x
  rw [List.getElem?_set]
  split
  · rename_i e
    subst e
    rw [hg] at hj
    injection hj with hj
    exact absurd hj.symm hne
  · exact hj

/-- **C159** (partial): if the name is no other mobile station's former one either, and, in a request for
registration, the P-TMSI is no other mobile station's. -/
theorem c159_partial {cfg : GmmCfg} {L : GmmLayer} {g : Gmme} (hg : g ∈ L.es) {ok : GmmOut → Bool} {ev : LayerEv}
    {r : LayerStep} (hf : IsFor ev g) (ho : ∀ h ∈ L.es, IsFor ev h → h = g)
    (hp : ∀ h ∈ L.es, Formerly ev h → h = g) (h : layerStep cfg ok L ev = .ok r) : Reached L ev g r := by
  have hreg : ∀ p i d, g.imsi = i → (∀ h ∈ L.es, h.imsi = i → h = g) →
      (∀ h ∈ L.es, (p ≠ reservedTmsi ∧ (h.ptmsi = p ∨ h.oldPtmsi = p)) → h = g) →
      (findOrCreate L p i d).1 = L ∧ L.es[(findOrCreate L p i d).2]? = some g := by
    intro p i d hi hoi hop
    unfold findOrCreate
    split
    · rename_i k hk
      split at hk
      · rename_i hres
        obtain ⟨hlt, hq, _⟩ := List.findIdx?_eq_some_iff_getElem.1 hk
        exact ⟨rfl, by rw [List.getElem?_eq_getElem hlt, hop _ (List.getElem_mem hlt) ⟨hres, by simpa using hq⟩]⟩
      · cases hk
    · obtain ⟨k, h1, h2⟩ := findIdx_only (f := fun g => decide (g.imsi = i)) hg (by simpa using hi)
        (fun h hh e => hoi h hh (by simpa using e))
      have : findImsi L.es i = some k := h1
      rw [this]
      exact ⟨rfl, h2⟩
  have hfound : ∀ (f : Gmme → Bool) (e : Errno), f g = true → (∀ h ∈ L.es, f h = true → h = g) →
      stepFound cfg ok L (L.es.findIdx? f) e (evAt ev) = .ok r → Reached L ev g r := by
    intro f e h1 h2 h
    obtain ⟨k, h3, h4⟩ := findIdx_only hg h1 h2
    rw [h3] at h
    exact stepAt_reached h4 h
  have both : ∀ {a b : Prop} {x : Gmme}, (a → x = g) → (b → x = g) → a ∨ b → x = g := by
    intro a b x h1 h2 h
    rcases h with h | h
    · exact h1 h
    · exact h2 h
  cases ev with
  | enable on => exact hf.elim
  | attachReq p i d prm =>
    obtain ⟨h1, h2⟩ := hreg p i d hf ho hp
    change stepAt cfg ok (findOrCreate L p i d).1 (findOrCreate L p i d).2 _ = .ok r at h
    rw [h1] at h
    exact stepAt_reached h2 h
  | establishReq s p i d prm =>
    obtain ⟨h1, h2⟩ := hreg p i d hf ho hp
    change stepAt cfg ok (findOrCreate L p i d).1 (findOrCreate L p i d).2 _ = .ok r at h
    rw [h1] at h
    exact stepAt_reached h2 h
  | detachReq p ty off =>
    refine hfound (fun g => decide (g.ptmsi = p ∨ g.oldPtmsi = p)) .einval (decide_eq_true (Or.inl hf))
      (fun h hh e => both (ho h hh) (hp h hh) (by simpa [IsFor, Formerly] using e)) h
  | simAuthRsp a k x s c =>
    refine hfound (fun g => simAuthMatches g a k x) .einval (decide_eq_true hf)
      (fun h hh e => ho h hh (by simpa [simAuthMatches, IsFor] using e)) h
  | smUnitdataReq s pdu =>
    refine hfound (fun g => decide (g.sess = s)) .enoent (decide_eq_true hf)
      (fun h hh e => ho h hh (by simpa [IsFor, Formerly] using e)) h
  | pageInd t =>
    refine hfound (fun g => decide (g.tlli = t ∨ g.oldTlli = t)) .enoent (decide_eq_true (Or.inl hf))
      (fun h hh e => both (ho h hh) (hp h hh) (by simpa [IsFor, Formerly] using e)) h
  | llcTransmitted t =>
    refine hfound (fun g => decide (g.tlli = t ∨ g.oldTlli = t)) .enoent (decide_eq_true (Or.inl hf))
      (fun h hh e => both (ho h hh) (hp h hh) (by simpa [IsFor, Formerly] using e)) h
  | rx t b =>
    refine hfound (fun g => decide (g.tlli = t ∨ g.oldTlli = t)) .enoent (decide_eq_true (Or.inl hf))
      (fun h hh e => both (ho h hh) (hp h hh) (by simpa [IsFor, Formerly] using e)) h
  | fsmTimer k => exact hf.elim
  | t3314 k => exact hf.elim
  | t3312 k => exact hf.elim
  | t3316 k => exact hf.elim

/-- Two mobile stations: B and then A are attached; A is given a P-TMSI and then another one, and the
network gives the first one to B. -/
def twoMs : List LayerIn :=
  [⟨.enable true, yes⟩,
   ⟨.attachReq reservedTmsi [2] [1] prm0, yes⟩,
   ⟨.attachReq reservedTmsi [1] [2] prm0, yes⟩,
   ⟨.rx 0x78000002 attAccMsg, yes⟩,
   ⟨.rx 0xea711b41 ([0x08, 0x10, 0x05, 0xf4, 0xea, 0x71, 0x1b, 0x42, 0x32, 0xf4, 0x07, 0x00, 0x05, 0x00, 0x00]), yes⟩,
   ⟨.rx 0x78000001 attAccMsg, yes⟩]

/-- Ends of histories of the layer that are known to exist. -/
def layerOf (r : Res (GmmLayer × List LayerObs)) : GmmLayer :=
  match r with
  | .ok (L, _) => L
  | _ => gmmLayer0

def seenOf (r : Res (GmmLayer × List LayerObs)) : List LayerObs :=
  match r with
  | .ok (_, t) => t
  | _ => []

def okLayer (r : Res (GmmLayer × List LayerObs)) : Bool :=
  match r with
  | .ok _ => true
  | _ => false

theorem layerReach {l : List LayerIn} (h : okLayer (layerRun defaultCfg gmmLayer0 l) = true) :
    LayerReach defaultCfg (layerOf (layerRun defaultCfg gmmLayer0 l)) (seenOf (layerRun defaultCfg gmmLayer0 l)) := by
  refine ⟨l, ?_⟩
  cases hr : layerRun defaultCfg gmmLayer0 l with
  | ok x => rfl
  | err e => rw [hr] at h; cases h
  | ub u => rw [hr] at h; cases h


/-- The layer after that. -/
def twoMsL : GmmLayer := layerOf (layerRun defaultCfg gmmLayer0 twoMs)

theorem twoMs_reach : LayerReach defaultCfg twoMsL (seenOf (layerRun defaultCfg gmmLayer0 twoMs)) :=
  layerReach (by decide +kernel)

theorem twoMs_names : twoMsL.es.map namesOf =
    [([1], 0xea711b42, 0xea711b41, 0xea711b42, 0xea711b41),
     ([2], 0xea711b41, 0x78000001, 0xea711b41, 0xffffffff)] := by decide +kernel

theorem twoMs_two : ∃ a b, twoMsL.es = [a, b] ∧
    namesOf a = ([1], 0xea711b42, 0xea711b41, 0xea711b42, 0xea711b41) ∧
    namesOf b = ([2], 0xea711b41, 0x78000001, 0xea711b41, 0xffffffff) := by
  obtain ⟨a, l, he, ha, hl⟩ := List.map_eq_cons_iff.1 twoMs_names
  obtain ⟨b, l', he', hb, hl'⟩ := List.map_eq_cons_iff.1 hl
  rw [List.map_eq_nil_iff] at hl'
  subst hl'; subst he'
  exact ⟨a, b, he, ha, hb⟩

/-- Whether the event reached the mobile station of that IMSI. -/
def reachedImsi (r : Res LayerStep) : List (List Nat) :=
  match r with
  | .ok r => r.seen.map LayerObs.imsi
  | _ => []

/-- An event for B alone that reaches A. -/
theorem misdirected {ev : LayerEv} (h1 : ∀ g : Gmme, namesOf g = ([1], 0xea711b42, 0xea711b41, 0xea711b42, 0xea711b41) → ¬ IsFor ev g)
    (h2 : ∀ g : Gmme, namesOf g = ([2], 0xea711b41, 0x78000001, 0xea711b41, 0xffffffff) → IsFor ev g)
    (h3 : reachedImsi (layerStep defaultCfg yes twoMsL ev) = [[1]]) : ¬ C159Statement := by
  intro hs
  obtain ⟨a, b, he, ha, hb⟩ := twoMs_two
  have hf : IsFor ev b := h2 b hb
  have ho : ∀ h ∈ twoMsL.es, IsFor ev h → h = b := by
    rw [he]
    intro h hh hq
    rcases List.mem_cons.1 hh with rfl | hh
    · exact absurd hq (h1 h ha)
    · exact List.mem_singleton.1 hh
  cases hr : layerStep defaultCfg yes twoMsL ev with
  | ok r =>
    obtain ⟨⟨o, h4, h5, _⟩, _, _⟩ := hs _ _ _ twoMs_reach b (by rw [he]; simp) yes ev r hf ho hr
    rw [hr] at h3
    simp only [reachedImsi, h4, List.map_cons, List.map_nil] at h3
    rw [h5] at h3
    have : b.imsi = [2] := congrArg (fun n => n.1) hb
    rw [this] at h3
    exact absurd h3 (by decide)
  | err e => rw [hr] at h3; cases h3
  | ub u => rw [hr] at h3; cases h3

/-- **C159** fails: a mobile station keeps the P-TMSI and the TLLI it had before, and when the network gives
them to another one, messages, pages and requests for that one go to the former owner. -/
theorem c159_violated : ¬ C159Statement :=
  misdirected (ev := .rx 0xea711b41 attAccMsg)
    (fun g h e => by
      have : g.tlli = 0xea711b42 := congrArg (fun n => n.2.1) h
      rw [IsFor, this] at e; exact absurd e (by decide))
    (fun g h => show g.tlli = _ from congrArg (fun n => n.2.1) h) (by decide +kernel)

/-- So does a request of the user to attach B, with the IMSI of B. -/
theorem c159_violated_attach : ¬ C159Statement :=
  misdirected (ev := .attachReq 0xea711b41 [2] [] prm0)
    (fun g h e => by
      have : g.imsi = [1] := congrArg (fun n => n.1) h
      rw [IsFor, this] at e; exact absurd e (by decide))
    (fun g h => show g.imsi = _ from congrArg (fun n => n.1) h) (by decide +kernel)

/-- **C159** (partial): an event that is for nobody, now or formerly, and asks for no registration, changes
nothing, and whoever gave it is told so. -/
theorem c159_nobody {cfg : GmmCfg} {L : GmmLayer} {ok : GmmOut → Bool} {ev : LayerEv} {r : LayerStep}
    (hk : match ev with
      | .detachReq .. | .simAuthRsp .. | .smUnitdataReq .. | .pageInd .. | .llcTransmitted .. | .rx .. => True
      | _ => False)
    (ho : ∀ h ∈ L.es, ¬ IsFor ev h) (hp : ∀ h ∈ L.es, ¬ Formerly ev h) (h : layerStep cfg ok L ev = .ok r) :
    r.layer = L ∧ r.seen = [] ∧ r.rc ≠ none := by
  have hfound : ∀ (f : Gmme → Bool) (e : Errno) (ev' : GmmEv), (∀ h ∈ L.es, f h = false) →
      stepFound cfg ok L (L.es.findIdx? f) e ev' = .ok r → r.layer = L ∧ r.seen = [] ∧ r.rc ≠ none := by
    intro f e ev' h1 h
    rw [List.findIdx?_eq_none_iff.2 h1] at h
    injection h with h; subst h
    exact ⟨rfl, rfl, fun h => (by cases h)⟩
  cases ev with
  | detachReq p ty off =>
    exact hfound (fun g => decide (g.ptmsi = p ∨ g.oldPtmsi = p)) .einval _
      (fun h hh => by simpa [IsFor, Formerly] using And.intro (ho h hh) (hp h hh)) h
  | simAuthRsp a k x s c =>
    exact hfound (fun g => simAuthMatches g a k x) .einval _
      (fun h hh => by simpa [IsFor, simAuthMatches] using ho h hh) h
  | smUnitdataReq s pdu =>
    exact hfound (fun g => decide (g.sess = s)) .enoent _ (fun h hh => by simpa [IsFor] using ho h hh) h
  | pageInd t =>
    exact hfound (fun g => decide (g.tlli = t ∨ g.oldTlli = t)) .enoent _
      (fun h hh => by simpa [IsFor, Formerly] using And.intro (ho h hh) (hp h hh)) h
  | llcTransmitted t =>
    exact hfound (fun g => decide (g.tlli = t ∨ g.oldTlli = t)) .enoent _
      (fun h hh => by simpa [IsFor, Formerly] using And.intro (ho h hh) (hp h hh)) h
  | rx t b =>
    exact hfound (fun g => decide (g.tlli = t ∨ g.oldTlli = t)) .enoent _
      (fun h hh => by simpa [IsFor, Formerly] using And.intro (ho h hh) (hp h hh)) h
  | enable on => exact hk.elim
  | attachReq p i d prm => exact hk.elim
  | establishReq s p i d prm => exact hk.elim
  | fsmTimer k => exact hk.elim
  | t3314 k => exact hk.elim
  | t3312 k => exact hk.elim
  | t3316 k => exact hk.elim

/-! ## C160: a new mobile station has a TLLI of its own -/

/-- 3GPP TS 23.003 2.4: the two highest bits of a P-TMSI are 11. -/
def WfPtmsi (p : Nat) : Prop := 0xc0000000 ≤ p ∧ p < 0x100000000

/-- 3GPP TS 23.003 table 1: a random TLLI begins with 01111. -/
def IsRandomTlli (t : Nat) : Prop := 0x78000000 ≤ t ∧ t < 0x80000000

/-- Where the TLLIs of an entity come from. -/
def NamesOk (n : List Nat × Nat × Nat × Nat × Nat) : Prop :=
  (n.2.1 = tlliUnassigned ∨ IsRandomTlli n.2.1 ∨ n.2.1 = localTlli n.2.2.2.1 ∨ n.2.1 = foreignTlli n.2.2.2.1) ∧
  (n.2.2.1 = tlliUnassigned ∨ IsRandomTlli n.2.2.1 ∨ n.2.2.1 = localTlli n.2.2.2.1 ∨
    n.2.2.1 = foreignTlli n.2.2.2.1 ∨ n.2.2.1 = localTlli n.2.2.2.2 ∨ n.2.2.1 = foreignTlli n.2.2.2.2)

theorem namesOk_closed (cfg : GmmCfg) : Closed cfg (fun g => NamesOk (namesOf g)) True :=
  names_closed cfg NamesOk
    (fun g p h => ⟨Or.inr (Or.inr (Or.inl rfl)), by
      rcases h.1 with h | h | h | h
      · exact Or.inl h
      · exact Or.inr (Or.inl h)
      · exact Or.inr (Or.inr (Or.inr (Or.inr (Or.inl h))))
      · exact Or.inr (Or.inr (Or.inr (Or.inr (Or.inr h))))⟩)
    (fun g h => ⟨Or.inl rfl, by
      rcases h.1 with h | h | h | h
      · exact Or.inl h
      · exact Or.inr (Or.inl h)
      · exact Or.inr (Or.inr (Or.inl h))
      · exact Or.inr (Or.inr (Or.inr (Or.inl h)))⟩)

theorem randTlli_cases (es : List Gmme) (d : List Nat) :
    (randTlli es d = tlliUnassigned ∧ ∀ x ∈ d, (findGmmTlli es (x % 0x8000000 + 0x78000000)).isSome) ∨
    (IsRandomTlli (randTlli es d) ∧ findGmmTlli es (randTlli es d) = none) := by
  induction d with
  | nil => exact Or.inl ⟨rfl, fun _ h => (by cases h)⟩
  | cons x d ih =>
    unfold randTlli
    split
    · rename_i hx
      rcases ih with ⟨h1, h2⟩ | h
      · refine Or.inl ⟨h1, fun y hy => ?_⟩
        rcases List.mem_cons.1 hy with rfl | hy
        · exact hx
        · exact h2 y hy
      · exact Or.inr h
    · rename_i hx
      exact Or.inr ⟨⟨by omega, by omega⟩, by simpa using hx⟩

theorem alloc_namesOk {en : Bool} {p : Nat} {i d : List Nat} {es : List Gmme} :
    NamesOk (namesOf (gmmeAlloc en p i (randTlli es d))) := by
  refine ⟨?_, Or.inl rfl⟩
  by_cases hp : p = reservedTmsi
  · have : (namesOf (gmmeAlloc en p i (randTlli es d))).2.1 = randTlli es d := by
      simp [namesOf, gmmeAlloc, hp]
    rw [this]
    rcases randTlli_cases es d with h | h
    · exact Or.inl h.1
    · exact Or.inr (Or.inl h.1)
  · refine Or.inr (Or.inr (Or.inr ?_))
    simp [namesOf, gmmeAlloc, hp]

theorem layerStep_namesOk {cfg : GmmCfg} {ok : GmmOut → Bool} {L : GmmLayer} {ev : LayerEv} {r : LayerStep}
    (hi : ∀ g ∈ L.es, NamesOk (namesOf g)) (h : layerStep cfg ok L ev = .ok r) :
    ∀ g ∈ r.layer.es, NamesOk (namesOf g) := by
  have hat : ∀ (L : GmmLayer) (k : Nat) (ev : GmmEv), (∀ g ∈ L.es, NamesOk (namesOf g)) →
      stepAt cfg ok L k ev = .ok r → ∀ g ∈ r.layer.es, NamesOk (namesOf g) := by
    intro L k ev hi h
    unfold stepAt at h
    split at h
    · rename_i g hg
      obtain ⟨s, hs, h⟩ := bind_eq_ok.1 h
      injection h with h; subst h
      intro x hx
      rcases List.mem_or_eq_of_mem_set hx with hx | rfl
      · exact hi x hx
      · exact (namesOk_closed cfg).step g ok ev s (hi g (List.mem_of_getElem? hg)) hs
    · injection h with h; subst h; exact hi
  have hfo : ∀ (k : Option Nat) (e : Errno) (ev : GmmEv), stepFound cfg ok L k e ev = .ok r →
      ∀ g ∈ r.layer.es, NamesOk (namesOf g) := by
    intro k e ev h
    unfold stepFound at h
    split at h
    · exact hat _ _ _ hi h
    · injection h with h; subst h; exact hi
  have hcr : ∀ p i d, ∀ g ∈ (findOrCreate L p i d).1.es, NamesOk (namesOf g) := by
    intro p i d
    unfold findOrCreate
    split
    · exact hi
    · split
      · exact hi
      · intro g hg
        rcases List.mem_cons.1 hg with rfl | hg
        · exact alloc_namesOk
        · exact hi g hg
  cases ev with
  | enable on =>
    simp only [layerStep] at h
    split at h
    · injection h with h; subst h; exact hi
    · injection h with h; subst h
      have : ∀ es : List Gmme, (∀ g ∈ es, NamesOk (namesOf g)) →
          ∀ g ∈ (enableAll cfg ok on es).1, NamesOk (namesOf g) := by
        intro es
        induction es with
        | nil => exact fun _ _ h => (by cases h)
        | cons g es ih =>
          intro hi x hx
          rcases List.mem_cons.1 hx with rfl | hx
          · exact (namesOk_closed cfg).step g ok (.enable on) _ (hi g List.mem_cons_self) rfl
          · exact ih (fun y hy => hi y (List.mem_cons_of_mem _ hy)) x hx
      exact this L.es hi
  | attachReq p i d prm => exact hat _ _ _ (hcr p i d) h
  | establishReq s p i d prm => exact hat _ _ _ (hcr p i d) h
  | detachReq p ty off => exact hfo _ _ _ h
  | simAuthRsp a k x s c => exact hfo _ _ _ h
  | smUnitdataReq s pdu => exact hfo _ _ _ h
  | pageInd t => exact hfo _ _ _ h
  | llcTransmitted t => exact hfo _ _ _ h
  | rx t b => exact hfo _ _ _ h
  | fsmTimer k => exact hat _ _ _ hi h
  | t3314 k => exact hat _ _ _ hi h
  | t3312 k => exact hat _ _ _ hi h
  | t3316 k => exact hat _ _ _ hi h

theorem reach_namesOk {cfg : GmmCfg} {L : GmmLayer} {t : List LayerObs} (h : LayerReach cfg L t) :
    ∀ g ∈ L.es, NamesOk (namesOf g) := by
  obtain ⟨l, h⟩ := h
  have : ∀ (l : List LayerIn) (L L' : GmmLayer) (t : List LayerObs), (∀ g ∈ L.es, NamesOk (namesOf g)) →
      layerRun cfg L l = .ok (L', t) → ∀ g ∈ L'.es, NamesOk (namesOf g) := by
    intro l
    induction l with
    | nil =>
      intro L L' t hi h
      unfold layerRun at h
      injection h with h; injection h with h1 h2
      subst h1; exact hi
    | cons i l ih =>
      intro L L' t hi h
      unfold layerRun at h
      obtain ⟨r, hr, h⟩ := bind_eq_ok.1 h
      obtain ⟨x, hx, h⟩ := bind_eq_ok.1 h
      injection h with h; injection h with h1 h2
      subst h1
      exact ih _ _ _ (layerStep_namesOk hi hr) hx
  exact this l _ _ _ (fun _ h => (by cases h)) h

theorem requestAttach_names {cfg : GmmCfg} {ok : GmmOut → Bool} {g : Gmme} {a : Nat} {w e : Bool} :
    namesOf (requestAttach cfg ok g a w e).g = namesOf g := by
  unfold requestAttach dispatch
  split
  · rename_i h
    exact (layer_fsm_names h).trans rfl
  · rfl

theorem register_names {cfg : GmmCfg} {ok : GmmOut → Bool} {g : Gmme} {ev : LayerEv} {r : GmmStep}
    (hk : match ev with | .attachReq .. | .establishReq .. => True | _ => False)
    (h : gmmStep cfg ok g (evAt ev) = .ok r) : namesOf r.g = namesOf g := by
  cases ev with
  | attachReq p i d prm =>
    injection h with h; subst h
    exact requestAttach_names
  | establishReq s p i d prm =>
    injection h with h; subst h
    show namesOf (establishReqAct cfg ok g s prm).g = _
    unfold establishReqAct
    dsimp only
    split
    · unfold submitOne; split <;> rfl
    · exact requestAttach_names
  | _ => exact hk.elim

/-- The P-TMSI, IMSI and random numbers of a request for registration. -/
def regOf : LayerEv → Option (Nat × List Nat × List Nat)
  | .attachReq p i d _ => some (p, i, d)
  | .establishReq _ p i d _ => some (p, i, d)
  | _ => none

/-- **C160**: when a request for registration brings in a mobile station, and if P-TMSIs have the form the
standard prescribes and the random numbers drawn are not all in use, the others are as before, and the new
one has a TLLI of the form the standard prescribes that no other one has or had before. -/
theorem c160_fresh {cfg : GmmCfg} {L : GmmLayer} {t : List LayerObs} (hL : LayerReach cfg L t)
    {ok : GmmOut → Bool} {ev : LayerEv} {p : Nat} {i d : List Nat} {r : LayerStep}
    (hev : regOf ev = some (p, i, d)) (hr : layerStep cfg ok L ev = .ok r)
    (hi : ∀ g ∈ L.es, g.imsi ≠ i)
    (hp : p ≠ 0xffffffff → ∀ g ∈ L.es, g.ptmsi ≠ p ∧ g.oldPtmsi ≠ p)
    (hw : p ≠ 0xffffffff → WfPtmsi p ∧ ∀ g ∈ L.es, WfPtmsi g.ptmsi ∧ WfPtmsi g.oldPtmsi)
    (hd : p = 0xffffffff → ∃ x ∈ d, ∀ g ∈ L.es,
      g.tlli ≠ x % 0x8000000 + 0x78000000 ∧ g.oldTlli ≠ x % 0x8000000 + 0x78000000) :
    ∃ h, r.layer.es = h :: L.es ∧ h.imsi = i ∧ h.ptmsi = p ∧
      (∀ g ∈ L.es, h.tlli ≠ g.tlli ∧ h.tlli ≠ g.oldTlli) ∧
      (p = 0xffffffff → IsRandomTlli h.tlli) ∧
      (p ≠ 0xffffffff → h.tlli = p - 0x40000000) := by
  have hnone : findImsi L.es i = none := by
    unfold findImsi
    exact List.findIdx?_eq_none_iff.2 (fun g hg => by simpa using hi g hg)
  have hcr : findOrCreate L p i d = ({ L with es := gmmeAlloc L.enabled p i (randTlli L.es d) :: L.es }, 0) := by
    unfold findOrCreate
    have : (if p ≠ reservedTmsi then findPtmsi L.es p else none) = none := by
      split
      · rename_i hne
        unfold findPtmsi
        exact List.findIdx?_eq_none_iff.2 (fun g hg => by simpa using hp hne g hg)
      · rfl
    rw [this, hnone]
  have hst : ∃ s, gmmStep cfg ok (gmmeAlloc L.enabled p i (randTlli L.es d)) (evAt ev) = .ok s ∧
      r.layer.es = s.g :: L.es ∧ namesOf s.g = namesOf (gmmeAlloc L.enabled p i (randTlli L.es d)) := by
    have hat : layerStep cfg ok L ev = stepAt cfg ok (findOrCreate L p i d).1 (findOrCreate L p i d).2 (evAt ev) := by
      cases ev <;> simp only [regOf, Option.some.injEq, Prod.mk.injEq, reduceCtorEq] at hev <;>
        (obtain ⟨rfl, rfl, rfl⟩ := hev; rfl)
    rw [hat, hcr] at hr
    unfold stepAt at hr
    simp only [List.getElem?_cons_zero] at hr
    obtain ⟨s, hs, h⟩ := bind_eq_ok.1 hr
    injection h with h; subst h
    refine ⟨s, hs, rfl, register_names ?_ hs⟩
    cases ev <;> first | trivial | (simp [regOf] at hev)
  obtain ⟨s, _, hes, hnm⟩ := hst
  have n1 : s.g.imsi = i := congrArg (fun n => n.1) hnm
  have n2 : s.g.tlli = if p = 0xffffffff then randTlli L.es d else foreignTlli p := congrArg (fun n => n.2.1) hnm
  have n3 : s.g.ptmsi = p := congrArg (fun n => n.2.2.2.1) hnm
  refine ⟨s.g, hes, n1, n3, ?_⟩
  rw [n2]
  by_cases hpr : p = 0xffffffff
  · rw [if_pos hpr]
    rcases randTlli_cases L.es d with ⟨_, h2⟩ | ⟨h1, h2⟩
    · obtain ⟨x, hx, hfree⟩ := hd hpr
      have := h2 x hx
      have hn : findGmmTlli L.es (x % 0x8000000 + 0x78000000) = none :=
        List.findIdx?_eq_none_iff.2 (fun g hg => by simpa using hfree g hg)
      rw [hn] at this; cases this
    · refine ⟨fun g hg => ?_, fun _ => h1, fun h => absurd hpr h⟩
      have := List.findIdx?_eq_none_iff.1 h2 g hg
      simp only [decide_eq_false_iff_not, not_or] at this
      exact ⟨Ne.symm this.1, Ne.symm this.2⟩
  · rw [if_neg hpr]
    obtain ⟨⟨hw1, hw2⟩, hw3⟩ := hw hpr
    refine ⟨fun g hg => ?_, fun h => absurd h hpr, fun _ => ?_⟩
    · obtain ⟨ho1, ho2⟩ := reach_namesOk hL g hg
      obtain ⟨⟨a1, a2⟩, ⟨b1, b2⟩⟩ := hw3 g hg
      obtain ⟨c1, c2⟩ := hp hpr g hg
      simp only [namesOf, IsRandomTlli, localTlli, foreignTlli, tlliUnassigned] at ho1 ho2 ⊢
      constructor
      · rcases ho1 with h | h | h | h <;> omega
      · rcases ho2 with h | h | h | h | h | h <;> omega
    · simp only [foreignTlli]; omega

/-! ## Instances -/

/-- Two mobile stations, each with a history of its own. -/
example : (twoMsL.es.map Gmme.imsi).Nodup ∧ twoMsL.es.length = 2 ∧
    (historyOf [1] (seenOf (layerRun defaultCfg gmmLayer0 twoMs))).length = 3 ∧
    (historyOf [2] (seenOf (layerRun defaultCfg gmmLayer0 twoMs))).length = 2 :=
  ⟨(c158_independent twoMs_reach).1, by decide +kernel, by decide +kernel, by decide +kernel⟩

/-- A message for A under its TLLI, which B does not have and never had, reaches A. -/
example : reachedImsi (layerStep defaultCfg yes twoMsL (.rx 0xea711b42 attAccMsg)) = [[1]] := by decide +kernel

example : ∀ h ∈ twoMsL.es, Formerly (.rx 0xea711b42 attAccMsg) h → h.imsi = [1] := by
  obtain ⟨a, b, he, ha, hb⟩ := twoMs_two
  rw [he]
  intro h hh hq
  rcases List.mem_cons.1 hh with rfl | hh
  · exact congrArg (fun n => n.1) ha
  · rw [List.mem_singleton] at hh; subst hh
    have : h.oldTlli = 0x78000001 := congrArg (fun n => n.2.2.1) hb
    rw [Formerly, this] at hq
    exact absurd hq (by decide)

/-- A third mobile station, whose first random number is in use. -/
example : (match layerStep defaultCfg yes twoMsL (.attachReq 0xffffffff [3] [1, 7] prm0) with
    | .ok r => r.layer.es.map namesOf
    | _ => []) =
    ([3], 0x78000007, 0xffffffff, 0xffffffff, 0xffffffff) :: twoMsL.es.map namesOf := by decide +kernel

end Verif.Props
