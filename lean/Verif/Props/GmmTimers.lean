import Verif.Gmm.Closed
import Verif.Props.GmmProc
/-!
# C92: the READY timer and the periodic update timer
-/
namespace Verif.Props
open Verif Verif.Gmm

/-- The network knows the mobile station. -/
def Registered (g : Gmme) : Prop := g.st = .reg ∨ g.st = .rauInit ∨ g.st = .deregInit

/-- C92: the periodic update timer runs only while the mobile station is registered and the READY timer
does not run, and once something has been sent by a mobile station that is registered and has to update
periodically, one of them runs. -/
def C92Statement : Prop :=
  ∀ cfg g t, GmmReach cfg g t →
    (g.run3312 = true → Registered g) ∧ ¬ (g.run3314 = true ∧ g.run3312 = true) ∧
    (∀ ok r, gmmStep cfg ok g .llcTransmitted = .ok r → r.g.st = .reg → r.g.t3312s ≠ 0 →
      r.g.run3314 = true ∨ r.g.run3312 = true)

/-- ATTACH ACCEPT without optional elements and with a periodic update timer of 10 minutes. -/
def attAccShort : Octets := [0x08, 0x02, 0x01, 0x2a, 0x44, 0x32, 0xf4, 0x07, 0x00, 0x05, 0x00]

/-- After an ATTACH ACCEPT without optional elements no timer runs: there is no default READY timer. -/
theorem c92_violated : ¬ C92Statement := by
  intro h
  have h0 := reach0 (l := [⟨.attachReq prm0, yes⟩, ⟨.rx attAccShort, yes⟩]) (by decide +kernel)
  have := (h _ _ _ h0).2.2 yes _ rfl (by decide +kernel) (by decide +kernel)
  exact absurd this (by decide +kernel)

/-- After a detach the READY timer goes on, and starts the periodic update timer when it expires. -/
theorem c92_violated_detached :
    ∃ g t, GmmReach defaultCfg g t ∧ g.st = .dereg ∧ g.run3312 = true :=
  ⟨_, _, reach0 (l := [⟨.attachReq prm0, yes⟩, ⟨.rx attAccMsg, yes⟩, ⟨.llcTransmitted, yes⟩,
      ⟨.detachReq 1 false, yes⟩, ⟨.rx [0x08, 0x06, 0x00], yes⟩, ⟨.t3314, yes⟩]) (by decide +kernel),
    by decide +kernel, by decide +kernel⟩

/-- What holds of the timers. -/
def Tm (g : Gmme) : Prop :=
  ¬ (g.run3314 = true ∧ g.run3312 = true) ∧ (g.run3312 = true → g.t3312s ≠ 0) ∧
  (g.run3314 = true → g.t3314s ≠ 0)

theorem tm_same {g h : Gmme} (p : Tm g) (h1 : h.run3314 = g.run3314) (h2 : h.run3312 = g.run3312)
    (h3 : h.t3314s = g.t3314s) (h4 : h.t3312s = g.t3312s) : Tm h := by
  unfold Tm
  rw [h1, h2, h3, h4]
  exact p

theorem tm_readyStop {g : Gmme} (p : g.run3314 = true → Tm g)
    (q : g.run3314 = false → Tm g) : Tm (readyStop g) := by
  unfold readyStop t3312Start
  cases e : g.run3314 with
  | true =>
    have p := p e
    unfold Tm at p ⊢
    rw [if_pos rfl]
    dsimp only
    split
    · simp_all
    · simp_all
  | false => rw [if_neg (by simp)]; exact q e

theorem tm_closed (cfg : GmmCfg) : Closed cfg Tm where
  sig g n p := tm_same p rfl rfl rfl rfl
  ready g n p := by
    unfold Tm at p
    unfold readyNegotiated readyStop t3312Start Tm
    dsimp only
    split
    · split <;> split <;> (try split) <;> simp_all
    · simp_all
  ptmsi g n p := tm_same p rfl rfl rfl rfl
  ra g n p := tm_same p rfl rfl rfl rfl
  fixed g t f ra p := by
    have p1 : Tm (if tmrAssigned t = 0 then t3312Stop { g with t3312s := 0 }
        else { g with t3312s := tmrAssigned t }) := by
      unfold Tm at p
      split
      · unfold t3312Stop Tm; simp_all
      · unfold Tm; simp_all
    unfold applyFixed
    generalize (if tmrAssigned t = 0 then t3312Stop { g with t3312s := 0 }
        else { g with t3312s := tmrAssigned t }) = x at p1 ⊢
    have p2 : Tm (if f then readyStop x else x) := by
      split
      · exact tm_readyStop (fun _ => p1) (fun _ => p1)
      · exact p1
    generalize (if f then readyStop x else x) = y at p2 ⊢
    exact tm_same p2 rfl rfl rfl rfl
  npdu g b v p := tm_same p rfl rfl rfl rfl
  pdp g s p := tm_same p rfl rfl rfl rfl
  standby g p := tm_readyStop (fun _ => p) (fun _ => p)
  sends g p := by
    unfold Tm at p
    unfold readyStart t3312Stop Tm
    split
    · exact p
    · simp_all
  detached g p := tm_same p rfl rfl rfl rfl
  auth g a b c d e p _ _ := tm_same p rfl rfl rfl rfl
  noAuth g p _ := tm_same p rfl rfl rfl rfl
  kc g x p := tm_same p rfl rfl rfl rfl
  stop3316 g p := tm_same p rfl rfl rfl rfl
  start3316 g p := by unfold t3316Start; split <;> exact tm_same p rfl rfl rfl rfl
  prm g q p := tm_same p rfl rfl rfl rfl
  att g t w e i p := tm_same p rfl rfl rfl rfl
  det g t p := tm_same p rfl rfl rfl rfl
  sess g s p := tm_same p rfl rfl rfl rfl
  attCount g n p := tm_same p rfl rfl rfl rfl
  rauCount g n p := tm_same p rfl rfl rfl rfl
  exp3314 g p e := by
    unfold Tm at p
    unfold t3312Start Tm
    dsimp only
    split <;> simp_all
  exp3312 g p := by unfold Tm at p ⊢; simp_all
  exp3316 g p _ := tm_same p rfl rfl rfl rfl
  fsm ok g ev x _ p h := by
    have kd : Tm (toDereg g).1 := by
      unfold Tm at p; unfold toDereg t3316Stop t3312Stop Tm; simp_all
    have ka : Tm (startAttach cfg ok g).1 := by
      unfold startAttach; split
      · exact p
      · dsimp only; split
        · exact tm_same p rfl rfl rfl rfl
        · exact p
    have kr : Tm (startRau cfg ok g).1 := by
      unfold startRau; dsimp only; split
      · exact tm_same p rfl rfl rfl rfl
      · exact p
    have kj : ∀ c, Tm (rauRejectedAct g c).1 := by
      intro c; unfold rauRejectedAct; split
      · exact tm_same p rfl rfl rfl rfl
      · exact kd
    unfold gmmFsm at h
    split at h <;> first | cases h | (injection h with h; subst h)
    all_goals first
      | exact kd
      | exact ka
      | exact kr
      | exact kj _
      | exact tm_same p rfl rfl rfl rfl
      | exact p

/-- C92, what holds of all histories: the timers exclude each other, and neither runs without a value. -/
theorem c92_timers_partial {cfg : GmmCfg} {g : Gmme} {t : List GmmObs} (h : GmmReach cfg g t) :
    ¬ (g.run3314 = true ∧ g.run3312 = true) ∧ (g.run3312 = true → g.t3312s ≠ 0) ∧
    (g.run3314 = true → g.t3314s ≠ 0) := by
  obtain ⟨en, p, rnd, imsi, l, h⟩ := h
  exact gmmRun_inv (P := Tm) (fun g ok ev r => (tm_closed cfg).step g ok ev r) l _ _ _
    ⟨fun h => Bool.noConfusion h.1, (fun h => Bool.noConfusion h), (fun h => Bool.noConfusion h)⟩ h

/-- C92, what holds: if a READY timer has been assigned, a registered mobile station that has to update
periodically is covered: the READY timer runs after a transmission, the periodic update timer after the
READY timer, and its expiry starts an update. -/
theorem c92_cycle_partial {cfg : GmmCfg} {ok : GmmOut → Bool} {g : Gmme} (h14 : g.t3314s ≠ 0)
    (h12 : g.t3312s ≠ 0) (hs : g.st = .reg) (hok : ∀ o, ok o = true) :
    (∀ r, gmmStep cfg ok g .llcTransmitted = .ok r → r.g.run3314 = true ∧ r.g.run3312 = false) ∧
    (g.run3314 = true → ∀ r, gmmStep cfg ok g .t3314 = .ok r → r.g.run3314 = false ∧ r.g.run3312 = true) ∧
    (g.run3312 = true → ∀ r, gmmStep cfg ok g .t3312 = .ok r →
      r.g.st = .rauInit ∧ ∃ m, r.out = [.llgmmSuspend g.tlli, .llUnitdata g.tlli m]) := by
  refine ⟨?_, ?_, ?_⟩
  · intro r h
    injection h with h; subst h
    unfold readyStart
    rw [if_neg h14]
    exact ⟨rfl, rfl⟩
  · intro e r h
    injection h with h; subst h
    rw [if_pos e]
    unfold t3312Start
    rw [if_neg h12]
    exact ⟨rfl, rfl⟩
  · intro e r h
    injection h with h; subst h
    unfold periodicUpdate
    rw [if_pos e]
    unfold dispatch
    have : gmmFsm cfg ok { g with run3312 := false, rauType := 3 } .rauRequested =
        some (startRau cfg ok { g with run3312 := false, rauType := 3 }) := by
      unfold gmmFsm; simp only [hs]
    rw [this]
    dsimp only
    unfold startRau
    rw [if_pos (hok _)]
    exact ⟨rfl, _, rfl⟩

/-- Such a mobile station is met: it has attached and has sent something. -/
example : ∃ g t, GmmReach defaultCfg g t ∧ g.st = .reg ∧ g.t3314s ≠ 0 ∧ g.t3312s ≠ 0 ∧ g.run3314 = true :=
  ⟨_, _, reach0 (l := [⟨.attachReq prm0, yes⟩, ⟨.rx attAccMsg, yes⟩, ⟨.llcTransmitted, yes⟩])
    (by decide +kernel), by decide +kernel, by decide +kernel, by decide +kernel, by decide +kernel⟩

end Verif.Props
