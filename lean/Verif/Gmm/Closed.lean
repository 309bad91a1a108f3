import Verif.Gmm.EntityLemmas
/-!
# GMM: what is kept by every update of the entity is kept by every event
-/
namespace Verif.Gmm
open Verif Verif.Gsm

/-- A property of entities that each of the updates the layer makes keeps; those of the authentication
only if `A`, and those of the state machine for the events `F`, which are all but some of those by which
the user switches GPRS or the power. -/
structure Closed (cfg : GmmCfg) (P : Gmme → Prop) (A : Prop := True) (F : FsmEv → Prop := fun _ => True) :
    Prop where
  sig      : ∀ g n, P g → P { g with ptmsiSig := n }
  ready    : ∀ g n, P g → P (readyNegotiated { g with t3314s := n })
  ptmsi    : ∀ g p, P g → P (updatePtmsi g p)
  ra       : ∀ g x, P g → P { g with ra := x }
  fixed    : ∀ g t f ra, P g → P (applyFixed g t f ra)
  npdu     : ∀ g b v, P g → P { g with npduPresent := b, npdu := v }
  pdp      : ∀ g s, P g → P { g with pdpStatus := s }
  standby  : ∀ g, P g → P (readyStop g)
  sends    : ∀ g, P g → P (readyStart g)
  detached : ∀ g, P g → P { g with oldTlli := g.tlli, tlli := tlliUnassigned }
  auth     : ∀ g a b c d e, P g → a < 16 → A →
    P { g with gea := b, acRef := a, imeisvReq := c, keySeq := d, rand := e }
  noAuth   : ∀ g, P g → A → P { g with acRef := 0xff }
  kc       : ∀ g x, P g → P { g with kc := x }
  stop3316 : ∀ g, P g → P (t3316Stop g)
  start3316 : ∀ g, P g → P (t3316Start cfg g)
  prm      : ∀ g p, P g → P (storeIdentities g p)
  att      : ∀ g t w e i, P g → P { g with attType := t, withImsi := w, explicitAtt := e, implicitAtt := i }
  det      : ∀ g t, P g → P { g with detType := t }
  sess     : ∀ g s, P g → P { g with sess := s }
  attCount : ∀ g n, P g → P { g with attAttempts := n }
  rauCount : ∀ g n, P g → P { g with rauAttempts := n }
  exp3314  : ∀ g, P g → g.run3314 = true → P (t3312Start { g with run3314 := false })
  exp3312  : ∀ g, P g → P { g with run3312 := false, rauType := 3 }
  exp3316  : ∀ g, P g → A → P { g with run3316 := false, acRef := 0xff }
  plain    : ∀ ev, ev ≠ .enable → ev ≠ .disable → ev ≠ .detachPoweroff → F ev := by intros; trivial
  fsm      : ∀ ok g ev x, F ev → P g → gmmFsm cfg ok g ev = some x → P x.1

variable {cfg : GmmCfg} {P : Gmme → Prop} {A : Prop} {F : FsmEv → Prop}

theorem Closed.dispatch (c : Closed cfg P A F) {ok : GmmOut → Bool} {g : Gmme} {pre : List GmmOut} {ev : FsmEv}
    (h : P g) (f : F ev) : P (dispatch cfg ok g pre ev).g := by
  unfold Verif.Gmm.dispatch
  split
  · rename_i x y e; exact c.fsm ok g ev _ f h e
  · exact h

theorem Closed.applySig (c : Closed cfg P A F) {b : Octets} {ies : List Ie} {g h : Gmme} (p : P g)
    (e : applySig b ies g = .ok h) : P h := by
  unfold Verif.Gmm.applySig at e
  split at e
  · obtain ⟨v, _, e⟩ := bind_eq_ok.1 e
    injection e with e; subst e; exact c.sig _ _ p
  · injection e with e; subst e; exact c.sig _ _ p

theorem Closed.applyReady (c : Closed cfg P A F) {b : Octets} {ies : List Ie} {g h : Gmme} (p : P g)
    (e : applyReady cfg b ies g = .ok h) : P h := by
  unfold Verif.Gmm.applyReady at e
  split at e
  · obtain ⟨v, _, e⟩ := bind_eq_ok.1 e
    injection e with e; subst e; exact c.ready _ _ p
  · injection e with e; subst e; exact c.ready _ _ p

theorem Closed.applyPtmsi (c : Closed cfg P A F) {b : Octets} {ies : List Ie} {g h : Gmme} (p : P g)
    (e : applyPtmsi b ies g = .ok (some h)) : P h := by
  unfold Verif.Gmm.applyPtmsi at e
  split at e
  · obtain ⟨v, _, e⟩ := bind_eq_ok.1 e
    injection e with e
    rw [Option.map_eq_some_iff] at e
    obtain ⟨q, _, rfl⟩ := e
    exact c.ptmsi _ _ p
  · injection e with e; injection e with e; subst e; exact p

theorem Closed.applyNpdu (c : Closed cfg P A F) {b : Octets} {ies : List Ie} {g h : Gmme} (p : P g)
    (e : applyNpdu b ies g = .ok h) : P h := by
  unfold Verif.Gmm.applyNpdu at e
  split at e
  · obtain ⟨v, _, e⟩ := bind_eq_ok.1 e
    injection e with e; subst e; exact c.npdu _ _ _ p
  · injection e with e; subst e; exact c.npdu _ _ g.npdu p

theorem Closed.applyPdpStatus (c : Closed cfg P A F) {b : Octets} {ies : List Ie} {g h : Gmme} (p : P g)
    (e : applyPdpStatus b ies g = .ok h) : P h := by
  unfold Verif.Gmm.applyPdpStatus at e
  split at e
  · obtain ⟨v, _, e⟩ := bind_eq_ok.1 e
    injection e with e; subst e; exact c.pdp _ _ p
  · injection e with e; subst e; exact c.pdp _ _ p

theorem Closed.attAccIes (c : Closed cfg P A F) {b : Octets} {g : Gmme} {r : Gmme × Bool} (p : P g)
    (e : attAccIes cfg b g = .ok r) : P r.1 := by
  unfold Verif.Gmm.attAccIes at e
  split at e
  · split at e
    · injection e with e; subst e; exact p
    · cases e
    · obtain ⟨g1, h1, e⟩ := bind_eq_ok.1 e
      obtain ⟨g2, h2, e⟩ := bind_eq_ok.1 e
      obtain ⟨o, h3, e⟩ := bind_eq_ok.1 e
      have s2 := c.applyReady (c.applySig p h1) h2
      cases o with
      | none => injection e with e; subst e; exact s2
      | some g3 => injection e with e; subst e; exact c.applyPtmsi s2 h3
  · injection e with e; subst e; exact p

theorem Closed.rauAccRest (c : Closed cfg P A F) {b : Octets} {ies : List Ie} {g : Gmme} {r : Gmme × Bool}
    (p : P g) (e : rauAccRest cfg b ies g = .ok r) : P r.1 := by
  obtain ⟨g1, h1, e⟩ := bind_eq_ok.1 e
  obtain ⟨g2, h2, e⟩ := bind_eq_ok.1 e
  obtain ⟨g3, h3, e⟩ := bind_eq_ok.1 e
  injection e with e; subst e
  exact c.applyPdpStatus (c.applyReady (c.applyNpdu p h1) h2) h3

theorem Closed.rauAccIes (c : Closed cfg P A F) {b : Octets} {g : Gmme} {r : Gmme × Bool} (p : P g)
    (e : rauAccIes cfg b g = .ok r) : P r.1 := by
  unfold Verif.Gmm.rauAccIes at e
  split at e
  · split at e
    · injection e with e; subst e; exact p
    · cases e
    · obtain ⟨g1, h1, e⟩ := bind_eq_ok.1 e
      obtain ⟨o, h2, e⟩ := bind_eq_ok.1 e
      cases o with
      | none => injection e with e; subst e; exact c.applySig p h1
      | some g2 =>
        obtain ⟨im, _, e⟩ := bind_eq_ok.1 e
        have s2 := c.applyPtmsi (c.applySig p h1) h2
        split at e
        · exact c.rauAccRest s2 e
        · injection e with e; subst e; exact s2
  · injection e with e; subst e; exact p

theorem Closed.rejected {g : Gmme} {out : List GmmOut} {r : GmmStep} (p : P g)
    (h : rejected g out = .ok r) : P r.g := by
  injection h with h; subst h; exact p

theorem Closed.submitThen (c : Closed cfg P A F) {ok : GmmOut → Bool} {g : Gmme} {r : GmmStep}
    {outs : List GmmOut} {fe : FsmEv} (p : P g) (f : F fe)
    (h : submitThen cfg ok g outs fe = .ok r) : P r.g := by
  unfold Verif.Gmm.submitThen at h
  split at h
  · injection h with h; subst h; exact c.dispatch p f
  · exact Closed.rejected p h

theorem Closed.ifStandby (c : Closed cfg P A F) (k : Prop) [Decidable k] {g : Gmme} (p : P g) :
    P (if k then readyStop g else g) := by
  split
  · exact c.standby _ p
  · exact p

theorem Closed.authFinish (c : Closed cfg P A F) (hA : A) {ok : GmmOut → Bool} {g : Gmme} {sres : Option Octets} (p : P g) :
    P (authFinish ok g sres).g := by
  unfold Verif.Gmm.authFinish
  split
  · unfold authAnswer
    split
    · exact c.noAuth _ p hA
    · exact c.noAuth _ p hA
  · exact c.stop3316 _ (c.noAuth _ (c.noAuth _ p hA) hA)

theorem Closed.authFail (c : Closed cfg P A F) (hA : A) {g : Gmme} (n : Nat) (p : P g) : P (authFail g n).1 :=
  c.stop3316 _ (c.noAuth _ p hA)

theorem Closed.authApply (c : Closed cfg P A F) (hA : A) {ok : GmmOut → Bool} {g : Gmme} {o2 o3 : Nat} (h3 : o3 < 256)
    {r : Option (Octets × Nat)} (p : P g) : P (authApply ok g o2 o3 r).g := by
  have p1 := c.ifStandby (o3 % 16 ≠ 0) p
  unfold Verif.Gmm.authApply
  dsimp only
  generalize (if o3 % 16 ≠ 0 then readyStop g else g) = g1 at p1 ⊢
  split
  · rename_i rnd k
    have p2 := c.auth g1 (o3 / 16) (o2 % 16) (decide (o2 / 16 ≠ 0)) k rnd p1 (by omega) hA
    split
    · exact p2
    · exact c.authFail hA 0 p2
  · exact c.authFinish hA (c.auth g1 (o3 / 16) (o2 % 16) (decide (o2 / 16 ≠ 0)) 0xff g1.rand p1 (by omega) hA)

theorem rd_lt {b : Octets} {i n : Nat} (h : rd b i = .ok n) : n < 256 := by
  unfold rd at h
  split at h
  · rename_i v e
    injection h with h; subst h; exact v.toNat_lt
  · cases h

theorem Closed.rxAuthReq (c : Closed cfg P A F) (hA : A) {ok : GmmOut → Bool} {g : Gmme} {b : Octets} {r : GmmStep} (p : P g)
    (h : rxAuthReq ok g b = .ok r) : P r.g := by
  unfold Verif.Gmm.rxAuthReq at h
  split at h
  · injection h with h; subst h; exact c.authFail hA 0 p
  · obtain ⟨o2, _, h⟩ := bind_eq_ok.1 h
    obtain ⟨o3, h3, h⟩ := bind_eq_ok.1 h
    split at h
    · cases h
    · injection h with h; subst h; exact c.authFail hA 0 p
    · obtain ⟨x, _, h⟩ := bind_eq_ok.1 h
      injection h with h; subst h
      exact c.authApply hA (rd_lt h3) p

theorem Closed.rxPtmsiReall (c : Closed cfg P A F) {ok : GmmOut → Bool} {g : Gmme} {b : Octets} {r : GmmStep} (p : P g)
    (h : rxPtmsiReall ok g b = .ok r) : P r.g := by
  unfold Verif.Gmm.rxPtmsiReall at h
  split at h
  · exact Closed.rejected p h
  · obtain ⟨l, _, h⟩ := bind_eq_ok.1 h
    split at h
    · exact Closed.rejected p h
    · obtain ⟨mi, _, h⟩ := bind_eq_ok.1 h
      split at h
      · exact Closed.rejected p h
      · rename_i q _
        obtain ⟨ra, _, h⟩ := bind_eq_ok.1 h
        obtain ⟨o, _, h⟩ := bind_eq_ok.1 h
        have p1 := c.ifStandby (o / 16 = 1) (c.ra _ ra (c.ptmsi _ q p))
        generalize (if o / 16 = 1 then readyStop { updatePtmsi g q with ra := ra }
            else { updatePtmsi g q with ra := ra }) = g1 at p1 h
        unfold ptmsiReallEnd at h
        split at h
        · injection h with h; subst h; exact p1
        · exact Closed.rejected p1 h

theorem Closed.gmmRx (c : Closed cfg P A F) {ok : GmmOut → Bool} {g : Gmme} {b : Octets} {mt : Nat} {r : GmmStep}
    (hA : mt = 0x12 → A) (p : P g) (h : gmmRx cfg ok g b mt = .ok r) : P r.g := by
  unfold Verif.Gmm.gmmRx at h
  by_cases e : mt = 0x02
  · rw [if_pos e] at h
    unfold rxAttAcc at h
    split at h
    · exact Closed.rejected p h
    · obtain ⟨o, _, h⟩ := bind_eq_ok.1 h
      obtain ⟨t, _, h⟩ := bind_eq_ok.1 h
      obtain ⟨ra, _, h⟩ := bind_eq_ok.1 h
      obtain ⟨x, hx, h⟩ := bind_eq_ok.1 h
      have p1 := c.attAccIes (c.fixed _ _ _ _ p) hx
      unfold attAccEnd at h
      split at h
      · exact c.submitThen p1 (c.plain _ (by simp) (by simp) (by simp)) h
      · exact Closed.rejected p1 h
  rw [if_neg e] at h
  clear e
  by_cases e : mt = 0x04
  · rw [if_pos e] at h
    unfold rxAttRej at h
    split at h
    · exact Closed.rejected p h
    · obtain ⟨k, _, h⟩ := bind_eq_ok.1 h
      split at h
      · exact Closed.rejected p h
      · cases h
      · injection h with h; subst h; exact c.dispatch p (c.plain _ (by simp) (by simp) (by simp))
  rw [if_neg e] at h
  clear e
  by_cases e : mt = 0x06
  · rw [if_pos e] at h
    unfold rxDetachAcc at h
    split at h
    · exact Closed.rejected p h
    · obtain ⟨o, _, h⟩ := bind_eq_ok.1 h
      have p1 := c.ifStandby (o / 16 = 1) p
      generalize (if o / 16 = 1 then readyStop g else g) = g1 at p1 h
      exact c.submitThen (c.detached _ p1) (c.plain _ (by simp) (by simp) (by simp)) h
  rw [if_neg e] at h
  clear e
  by_cases e : mt = 0x09
  · rw [if_pos e] at h
    unfold rxRauAcc at h
    split at h
    · exact Closed.rejected p h
    · obtain ⟨o, _, h⟩ := bind_eq_ok.1 h
      obtain ⟨t, _, h⟩ := bind_eq_ok.1 h
      obtain ⟨ra, _, h⟩ := bind_eq_ok.1 h
      obtain ⟨x, hx, h⟩ := bind_eq_ok.1 h
      have p1 := c.rauAccIes (c.fixed _ _ _ _ p) hx
      unfold rauAccEnd at h
      split at h
      · exact c.submitThen p1 (c.plain _ (by simp) (by simp) (by simp)) h
      · exact Closed.rejected p1 h
  rw [if_neg e] at h
  clear e
  by_cases e : mt = 0x0b
  · rw [if_pos e] at h
    unfold rxRauRej at h
    split at h
    · injection h with h; subst h; exact c.dispatch p (c.plain _ (by simp) (by simp) (by simp))
    · obtain ⟨k, _, h⟩ := bind_eq_ok.1 h
      obtain ⟨o, _, h⟩ := bind_eq_ok.1 h
      have p1 := c.ifStandby (o / 16 = 1) p
      generalize (if o / 16 = 1 then readyStop g else g) = g1 at p1 h
      dsimp only at h
      split at h
      · cases h
      · injection h with h; subst h; exact c.dispatch p1 (c.plain _ (by simp) (by simp) (by simp))
  rw [if_neg e] at h
  clear e
  by_cases e : mt = 0x15
  · rw [if_pos e] at h
    unfold rxIdReq at h
    split at h
    · exact Closed.rejected p h
    · obtain ⟨o, _, h⟩ := bind_eq_ok.1 h
      have p1 := c.ifStandby (o / 16 = 1) p
      generalize (if o / 16 = 1 then readyStop g else g) = g1 at p1 h
      dsimp only at h
      split at h
      · injection h with h; subst h; exact p1
      · injection h with h; subst h; exact p1
  rw [if_neg e] at h
  clear e
  by_cases e : mt = 0x10
  · rw [if_pos e] at h
    exact c.rxPtmsiReall p h
  rw [if_neg e] at h
  clear e
  by_cases e : mt = 0x12
  · rw [if_pos e] at h
    exact c.rxAuthReq (hA e) p h
  rw [if_neg e] at h
  clear e
  by_cases e : mt = 0x14
  · rw [if_pos e] at h
    injection h with h; subst h; exact c.dispatch p (c.plain _ (by simp) (by simp) (by simp))
  rw [if_neg e] at h
  clear e
  by_cases e : mt = 0x20
  · rw [if_pos e] at h
    by_cases e' : b.length < 3
    · rw [if_pos e'] at h; exact Closed.rejected p h
    · rw [if_neg e'] at h
      injection h with h; subst h; exact p
  rw [if_neg e] at h
  clear e
  by_cases e : mt = 0x21
  · rw [if_pos e] at h
    unfold rxInfo at h
    split at h
    · cases h
    · exact Closed.rejected p h
    · injection h with h; subst h; exact p
  rw [if_neg e] at h
  exact Closed.rejected p h

/-- The events of the authentication: a request of the network, the answer of the SIM, T3316. -/
def OfAuth : GmmEv → Prop
  | .rx b => rd b 1 = .ok 0x12
  | .simAuthRsp .. => True
  | .t3316 => True
  | _ => False

/-- Every event keeps the property; those of the authentication if `A`, and the switches if `F`. -/
theorem Closed.stepF (c : Closed cfg P A F) (g : Gmme) (ok : GmmOut → Bool) (ev : GmmEv) (r : GmmStep) (p : P g)
    (hA : OfAuth ev → A) (hE : ∀ on, ev = .enable on → F (if on then .enable else .disable))
    (hO : ∀ t q, ev = .detachReq t q → F (if q then .detachPoweroff else .detachRequested)) (h : gmmStep cfg ok g ev = .ok r) : P r.g := by
  cases ev with
  | enable on => injection h with h; subst h; exact c.dispatch p (hE on rfl)
  | attachReq q =>
    injection h with h; subst h
    exact c.dispatch (c.att _ _ _ _ _ (c.sig _ _ (c.prm _ _ p))) (c.plain _ (by simp) (by simp) (by simp))
  | detachReq t q => injection h with h; subst h; exact c.dispatch (c.det _ _ p) (hO t q rfl)
  | simAuthRsp a k rnd s kc =>
    injection h with h; subst h
    unfold simAuthRspAct
    split
    · exact c.authFinish (hA trivial) (c.start3316 _ (c.kc _ _ p))
    · exact p
  | establishReq s q =>
    injection h with h; subst h
    have p1 := c.sig _ q.sig (c.sess _ s p)
    unfold establishReqAct
    dsimp only
    split
    · exact p1
    · exact c.dispatch (c.att _ _ _ _ _ (c.prm _ _ p1)) (c.plain _ (by simp) (by simp) (by simp))
  | smUnitdataReq b => injection h with h; subst h; exact p
  | pageInd => injection h with h; subst h; exact c.sends _ p
  | llcTransmitted => injection h with h; subst h; exact c.sends _ p
  | rx b =>
    change rxLlUnitdata cfg ok g b = .ok r at h
    unfold rxLlUnitdata at h
    split at h
    · exact Closed.rejected p h
    · obtain ⟨pd, _, h⟩ := bind_eq_ok.1 h
      obtain ⟨mt, hm, h⟩ := bind_eq_ok.1 h
      split at h
      · exact c.gmmRx (fun e => hA (e ▸ hm : rd b 1 = .ok 0x12)) p h
      · split at h
        · injection h with h; subst h; exact p
        · cases h
  | fsmTimer =>
    injection h with h; subst h
    unfold fsmTimeout
    split
    · split
      · exact c.dispatch (c.attCount _ _ p) (c.plain _ (by simp) (by simp) (by simp))
      · exact c.attCount _ _ p
    · split
      · exact c.dispatch (c.rauCount _ _ p) (c.plain _ (by simp) (by simp) (by simp))
      · exact c.rauCount _ _ p
    · exact p
  | t3314 =>
    injection h with h; subst h
    dsimp only
    split
    · rename_i e; exact c.exp3314 _ p e
    · exact p
  | t3312 =>
    injection h with h; subst h
    unfold periodicUpdate
    split
    · exact c.dispatch (c.exp3312 _ p) (c.plain _ (by simp) (by simp) (by simp))
    · exact p
  | t3316 =>
    injection h with h; subst h
    dsimp only
    split
    · exact c.exp3316 _ p (hA trivial)
    · exact p

/-- Every event keeps the property; those of the authentication if `A`. -/
theorem Closed.stepIf (c : Closed cfg P A) (g : Gmme) (ok : GmmOut → Bool) (ev : GmmEv) (r : GmmStep) (p : P g)
    (hA : OfAuth ev → A) (h : gmmStep cfg ok g ev = .ok r) : P r.g :=
  c.stepF g ok ev r p hA (fun _ _ => trivial) (fun _ _ _ => trivial) h

/-- Every event keeps the property. -/
theorem Closed.step (c : Closed cfg P) (g : Gmme) (ok : GmmOut → Bool) (ev : GmmEv) (r : GmmStep) (p : P g)
    (h : gmmStep cfg ok g ev = .ok r) : P r.g :=
  c.stepIf g ok ev r p (fun _ => trivial) h

end Verif.Gmm
