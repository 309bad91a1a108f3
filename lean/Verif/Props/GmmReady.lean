import Verif.Props.GmmTimers
import Verif.Props.GmmTimer
import Verif.Spec.Gmm
/-!
# C195: the READY timer is the one the network assigned
-/
namespace Verif.Props
open Verif Verif.Gmm Verif.Spec.Gmm

/-! ## Specification -/

/-- The optional elements: P-TMSI signature, negotiated READY timer value, allocated P-TMSI. -/
structure AcceptOpts where
  sig   : Option (UInt8 × UInt8 × UInt8)
  ready : Option UInt8
  ptmsi : Option (UInt8 × UInt8 × UInt8 × UInt8)

def sigElem : Option (UInt8 × UInt8 × UInt8) → Octets
  | some (a, b, c) => [0x19, a, b, c]
  | none => []
def readyElem : Option UInt8 → Octets
  | some t => [0x17, t]
  | none => []
def ptmsiElem : Option (UInt8 × UInt8 × UInt8 × UInt8) → Octets
  | some (a, b, c, d) => [0x18, 5, 0xf4, a, b, c, d]
  | none => []

/-- ATTACH ACCEPT (TS 24.008 9.4.2) with force to standby and result, periodic update timer, radio priorities, routing
area and optional elements. -/
def attachAcceptMsg (o timer prio : UInt8) (ra : Octets) (x : AcceptOpts) : Octets :=
  [0x08, 0x02, o, timer, prio] ++ ra ++ (sigElem x.sig ++ readyElem x.ready ++ ptmsiElem x.ptmsi)

/-- ROUTING AREA UPDATE ACCEPT (TS 24.008 9.4.15), likewise. -/
def rauAcceptMsg (o timer : UInt8) (ra : Octets) (x : AcceptOpts) : Octets :=
  [0x08, 0x09, o, timer] ++ ra ++ (sigElem x.sig ++ ptmsiElem x.ptmsi ++ readyElem x.ready)

/-- How long the READY timer runs after a transmission, in seconds; `none`: without end.  If the network gives no
value, the one asked for applies (TS 24.008 4.7.2.1.1, 10.5.7.3). -/
def readyFor (asked : Nat) (ready : Option UInt8) : Option Nat :=
  match ready with
  | some t => gprsTimer (t.toNat / 32) (t.toNat % 32)
  | none => some asked

/-- What the timers of a mobile station are to be after a transmission: while the READY timer runs, and so forever if it
runs without end, the periodic update timer does not; if its value is zero it does not run, and the periodic update timer
does, if there is one. -/
def TimersFor (d : Option Nat) (g : Gmme) : Prop :=
  match d with
  | none => g.run3312 = false
  | some n => if n = 0 then g.run3314 = false ∧ (g.t3312s ≠ 0 → g.run3312 = true)
    else g.run3314 = true ∧ g.t3314s = n ∧ g.run3312 = false

/-- **C195**, full statement.  After an accept that the mobile station is waiting for and a transmission, the READY timer
runs as the accept says. -/
def C195Statement : Prop :=
  ∀ cfg g tr, GmmReach cfg g tr → ∀ m x,
    ((∃ o timer prio ra, ra.length = 6 ∧ g.st = .regInit ∧ m = attachAcceptMsg o timer prio ra x) ∨
      (∃ o timer ra, ra.length = 6 ∧ g.st = .rauInit ∧ m = rauAcceptMsg o timer ra x)) →
    ∀ ok r r', (∀ y, ok y = true) → gmmStep cfg ok g (.rx m) = .ok r → gmmStep cfg ok r.g .llcTransmitted = .ok r' →
      TimersFor (readyFor cfg.t3314 x.ready) r'.g

/-! ## Refutations -/

/-- A mobile station that waits for ATTACH ACCEPT. -/
theorem ready_waits : ∃ g tr, GmmReach defaultCfg g tr ∧ g.st = .regInit ∧
    (∀ r r', gmmStep defaultCfg yes g (.rx (attachAcceptMsg 1 0x2a 0x44 [0x32, 0xf4, 7, 0, 5, 0] ⟨none, some 0xe0, none⟩)) = .ok r →
      gmmStep defaultCfg yes r.g .llcTransmitted = .ok r' → r'.g.run3312 = true) ∧
    (∀ r r', gmmStep defaultCfg yes g (.rx (attachAcceptMsg 1 0x2a 0x44 [0x32, 0xf4, 7, 0, 5, 0] ⟨none, none, none⟩)) = .ok r →
      gmmStep defaultCfg yes r.g .llcTransmitted = .ok r' → r'.g.run3314 = false) ∧
    (∃ r, gmmStep defaultCfg yes g (.rx (attachAcceptMsg 1 0x2a 0x44 [0x32, 0xf4, 7, 0, 5, 0] ⟨none, some 0xe0, none⟩)) = .ok r) ∧
    (∃ r, gmmStep defaultCfg yes g (.rx (attachAcceptMsg 1 0x2a 0x44 [0x32, 0xf4, 7, 0, 5, 0] ⟨none, none, none⟩)) = .ok r) := by
  refine ⟨_, _, reach0 (l := [⟨.attachReq prm0, yes⟩]) (by decide +kernel), by decide +kernel, ?_, ?_, ?_, ?_⟩
  · intro r r' h1 h2
    injection h1 with h1; subst h1
    injection h2 with h2; subst h2
    decide +kernel
  · intro r r' h1 h2
    injection h1 with h1; subst h1
    injection h2 with h2; subst h2
    decide +kernel
  · exact ⟨_, rfl⟩
  · exact ⟨_, rfl⟩

/-- **C195 is violated**: with the READY timer deactivated, which means that it never expires, the mobile station goes to
standby at once and starts the periodic update timer. -/
theorem c195_violated : ¬ C195Statement := by
  intro h
  obtain ⟨g, tr, h1, h2, h3, -, ⟨r, h4⟩, -⟩ := ready_waits
  have h5 := h _ g tr h1 _ ⟨none, some 0xe0, none⟩ (Or.inl ⟨1, 0x2a, 0x44, _, rfl, h2, rfl⟩) yes r _ (fun _ => rfl) h4 rfl
  have h6 := h3 r _ h4 rfl
  have h7 : TimersFor none _ := h5
  unfold TimersFor at h7
  rw [h7] at h6
  cases h6

/-- C195 is violated also by the shortest accepts: if no optional element follows, the value asked for is not applied, so
that the READY timer never runs after a first attach. -/
theorem c195_violated_absent : ∃ g tr r r', GmmReach defaultCfg g tr ∧ g.st = .regInit ∧
    gmmStep defaultCfg yes g (.rx (attachAcceptMsg 1 0x2a 0x44 [0x32, 0xf4, 7, 0, 5, 0] ⟨none, none, none⟩)) = .ok r ∧
    gmmStep defaultCfg yes r.g .llcTransmitted = .ok r' ∧ ¬ TimersFor (readyFor defaultCfg.t3314 none) r'.g := by
  obtain ⟨g, tr, h1, h2, -, h3, -, ⟨r, h4⟩⟩ := ready_waits
  refine ⟨g, tr, r, _, h1, h2, h4, rfl, ?_⟩
  intro h6
  have h7 := h3 r _ h4 rfl
  unfold TimersFor readyFor at h6
  dsimp only at h6 h7
  rw [if_neg (by decide), h7] at h6
  cases h6.1

/-! ## What holds -/

/-- The timers and their values. -/
def SameTimers (g h : Gmme) : Prop :=
  h.run3314 = g.run3314 ∧ h.t3314s = g.t3314s ∧ h.run3312 = g.run3312 ∧ h.t3312s = g.t3312s

theorem dispatch_timers (cfg : GmmCfg) (ok : GmmOut → Bool) (g : Gmme) (pre : List GmmOut) (ev : FsmEv)
    (he : ev = .attachAccepted ∨ ev = .rauAccepted) : SameTimers g (dispatch cfg ok g pre ev).g := by
  unfold dispatch gmmFsm
  rcases he with rfl | rfl <;> cases g.st <;> exact ⟨rfl, rfl, rfl, rfl⟩

theorem submitThen_timers (cfg : GmmCfg) (ok : GmmOut → Bool) (g : Gmme) (outs : List GmmOut) (ev : FsmEv)
    (he : ev = .attachAccepted ∨ ev = .rauAccepted) : ∃ r, submitThen cfg ok g outs ev = .ok r ∧ SameTimers g r.g := by
  unfold submitThen
  split
  · exact ⟨_, rfl, dispatch_timers cfg ok g _ ev he⟩
  · exact ⟨_, rfl, rfl, rfl, rfl, rfl⟩

/-- After the value is known and something has been sent. -/
theorem timers_negotiated (g : Gmme) (n : Nat) (h : Gmme) (hs : SameTimers (readyNegotiated { g with t3314s := n }) h) :
    TimersFor (some n) (readyStart h) := by
  obtain ⟨a, b, c, d⟩ := hs
  unfold TimersFor readyNegotiated readyStop t3312Start at *
  unfold readyStart t3312Stop
  by_cases hn : n = 0
  · subst hn
    cases h14 : g.run3314 <;> by_cases h12 : g.t3312s = 0 <;> simp_all
  · simp_all

theorem tmrAssigned_eq (t : UInt8) (n : Nat) (h : gprsTimer (t.toNat / 32) (t.toNat % 32) = some n) :
    tmrAssigned t.toNat = n := by
  have := c85_decode t
  rw [h] at this
  unfold tmrAssigned
  rw [this]
  simp

theorem ra_six {ra : Octets} (h : ra.length = 6) : ∃ a b c d e f, ra = [a, b, c, d, e, f] := by
  match ra, h with
  | [a, b, c, d, e, f], _ => exact ⟨a, b, c, d, e, f, rfl⟩

/-- The signature kept. -/
def sigKept : Option (UInt8 × UInt8 × UInt8) → Nat
  | some (a, b, c) => sigOf [a, b, c]
  | none => reservedTmsi

/-- The effect of the allocated P-TMSI. -/
def ptmsiKept : Option (UInt8 × UInt8 × UInt8 × UInt8) → Gmme → Gmme
  | some (a, b, c, d), g => updatePtmsi g (a.toNat * 0x1000000 + b.toNat * 0x10000 + c.toNat * 0x100 + d.toNat)
  | none, g => g

theorem ptmsiKept_timers (p : Option (UInt8 × UInt8 × UInt8 × UInt8)) (g : Gmme) : SameTimers g (ptmsiKept p g) := by
  cases p <;> exact ⟨rfl, rfl, rfl, rfl⟩

/-- The value the handlers arrive at. -/
def readyKept (cfg : GmmCfg) (ready : Option UInt8) : Nat :=
  match ready with
  | some t => tmrAssigned t.toNat
  | none => cfg.t3314

/-- The handler of ATTACH ACCEPT with an optional element. -/
theorem rx_attach_ready (cfg : GmmCfg) (ok : GmmOut → Bool) (g : Gmme) (o timer prio : UInt8) (ra : Octets) (x : AcceptOpts)
    (h : ra.length = 6) (hx : x.ready.isSome ∨ x.sig.isSome ∨ x.ptmsi.isSome) :
    gmmStep cfg ok g (.rx (attachAcceptMsg o timer prio ra x)) =
      attAccEnd cfg ok (ptmsiKept x.ptmsi (readyNegotiated
        { applyFixed g timer.toNat (decide (o.toNat / 16 ≠ 0)) ra with
          ptmsiSig := sigKept x.sig, t3314s := readyKept cfg x.ready }), true) := by
  obtain ⟨a, b, c, d, e, f, rfl⟩ := ra_six h
  obtain ⟨_ | ⟨s1, s2, s3⟩, _ | t, _ | ⟨p1, p2, p3, p4⟩⟩ := x
  · simp at hx
  all_goals rfl

/-- The handler of ROUTING AREA UPDATE ACCEPT with an optional element. -/
theorem rx_rau_ready (cfg : GmmCfg) (ok : GmmOut → Bool) (g : Gmme) (o timer : UInt8) (ra : Octets) (x : AcceptOpts)
    (h : ra.length = 6) (hx : x.ready.isSome ∨ x.sig.isSome ∨ x.ptmsi.isSome) :
    gmmStep cfg ok g (.rx (rauAcceptMsg o timer ra x)) =
      rauAccEnd cfg ok ({ readyNegotiated { ptmsiKept x.ptmsi
          { applyFixed g timer.toNat (decide (o.toNat % 16 ≠ 0)) ra with ptmsiSig := sigKept x.sig } with
            npduPresent := false, t3314s := readyKept cfg x.ready } with pdpStatus := none }, true) := by
  obtain ⟨a, b, c, d, e, f, rfl⟩ := ra_six h
  obtain ⟨_ | ⟨s1, s2, s3⟩, _ | t, _ | ⟨p1, p2, p3, p4⟩⟩ := x
  · simp at hx
  all_goals rfl

/-- **C195** (partial): every READY timer value of the network that is not "deactivated" is obeyed, and the value asked
for applies if there is none but another optional element, in whatever state the mobile station receives the accept and
whatever the layers below say. -/
theorem c195_partial (cfg : GmmCfg) (ok : GmmOut → Bool) (g : Gmme) (m : Octets) (x : AcceptOpts) (n : Nat)
    (ht : readyFor cfg.t3314 x.ready = some n) (hx : x.ready.isSome ∨ x.sig.isSome ∨ x.ptmsi.isSome)
    (hm : (∃ o timer prio ra, ra.length = 6 ∧ m = attachAcceptMsg o timer prio ra x) ∨
      (∃ o timer ra, ra.length = 6 ∧ m = rauAcceptMsg o timer ra x)) :
    ∃ r r', gmmStep cfg ok g (.rx m) = .ok r ∧ gmmStep cfg ok r.g .llcTransmitted = .ok r' ∧
      TimersFor (readyFor cfg.t3314 x.ready) r'.g := by
  have hn : readyKept cfg x.ready = n := by
    cases hr : x.ready with
    | none => rw [hr] at ht; injection ht
    | some t => rw [hr] at ht; exact tmrAssigned_eq t n ht
  rw [ht]
  rcases hm with ⟨o, timer, prio, ra, h6, rfl⟩ | ⟨o, timer, ra, h6, rfl⟩
  · have e := rx_attach_ready cfg ok g o timer prio ra x h6 hx
    rw [hn] at e
    unfold attAccEnd at e
    rw [if_pos rfl] at e
    generalize hg : (ptmsiKept x.ptmsi _ : Gmme) = h at e
    obtain ⟨r, e1, hs⟩ := submitThen_timers cfg ok h _ .attachAccepted (Or.inl rfl)
    refine ⟨r, _, e.trans e1, rfl, timers_negotiated
      { applyFixed g timer.toNat (decide (o.toNat / 16 ≠ 0)) ra with ptmsiSig := sigKept x.sig } n r.g ?_⟩
    have hp := ptmsiKept_timers x.ptmsi (readyNegotiated
        { applyFixed g timer.toNat (decide (o.toNat / 16 ≠ 0)) ra with ptmsiSig := sigKept x.sig, t3314s := n })
    rw [hg] at hp
    exact ⟨hs.1.trans hp.1, hs.2.1.trans hp.2.1, hs.2.2.1.trans hp.2.2.1, hs.2.2.2.trans hp.2.2.2⟩
  · have e := rx_rau_ready cfg ok g o timer ra x h6 hx
    rw [hn] at e
    unfold rauAccEnd at e
    rw [if_pos rfl] at e
    obtain ⟨r, e1, hs⟩ := submitThen_timers cfg ok { readyNegotiated { ptmsiKept x.ptmsi
          { applyFixed g timer.toNat (decide (o.toNat % 16 ≠ 0)) ra with ptmsiSig := sigKept x.sig } with
            npduPresent := false, t3314s := n } with pdpStatus := none } _ .rauAccepted (Or.inr rfl)
    exact ⟨r, _, e.trans e1, rfl, timers_negotiated { ptmsiKept x.ptmsi
          { applyFixed g timer.toNat (decide (o.toNat % 16 ≠ 0)) ra with ptmsiSig := sigKept x.sig } with
            npduPresent := false } n r.g hs⟩

/-- **C195 for "deactivated"**: in every state, an accept with the value "deactivated" does exactly what one with zero
does, which is the opposite of what it means. -/
theorem c195_deactivated (cfg : GmmCfg) (ok : GmmOut → Bool) (g : Gmme) (t : UInt8)
    (ht : gprsTimer (t.toNat / 32) (t.toNat % 32) = none) (ra : Octets) (h6 : ra.length = 6)
    (sig : Option (UInt8 × UInt8 × UInt8)) (ptmsi : Option (UInt8 × UInt8 × UInt8 × UInt8)) :
    (∀ o timer prio, gmmStep cfg ok g (.rx (attachAcceptMsg o timer prio ra ⟨sig, some t, ptmsi⟩)) =
      gmmStep cfg ok g (.rx (attachAcceptMsg o timer prio ra ⟨sig, some 0, ptmsi⟩))) ∧
    (∀ o timer, gmmStep cfg ok g (.rx (rauAcceptMsg o timer ra ⟨sig, some t, ptmsi⟩)) =
      gmmStep cfg ok g (.rx (rauAcceptMsg o timer ra ⟨sig, some 0, ptmsi⟩))) := by
  have hz : readyKept cfg (some t) = readyKept cfg (some 0) := by
    have := c85_decode t
    rw [ht] at this
    show tmrAssigned t.toNat = _
    unfold tmrAssigned
    rw [this]
    rfl
  constructor
  · intro o timer prio
    rw [rx_attach_ready cfg ok g o timer prio ra _ h6 (Or.inl rfl), rx_attach_ready cfg ok g o timer prio ra _ h6 (Or.inl rfl)]
    dsimp only
    rw [hz]
  · intro o timer
    rw [rx_rau_ready cfg ok g o timer ra _ h6 (Or.inl rfl), rx_rau_ready cfg ok g o timer ra _ h6 (Or.inl rfl)]
    dsimp only
    rw [hz]

/-- The theorems are not empty: 44 seconds, zero, "deactivated", and none but a P-TMSI. -/
example : readyFor 44 (some 0x16) = some 44 ∧ readyFor 44 (some 0) = some 0 ∧ readyFor 44 (some 0xe0) = none ∧
    readyFor 44 none = some 44 ∧ (⟨none, none, some (0xea, 0x71, 0x1b, 0x41)⟩ : AcceptOpts).ptmsi.isSome := by decide

end Verif.Props
