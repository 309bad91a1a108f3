import Verif.Props.GmmPdu
import Verif.Props.GmmProc
/-!
# C54: the P-TMSI signature
-/
namespace Verif.Props
open Verif Verif.Gmm Verif.Gsm
open Verif.Spec.Gmm (readAttachReq valueOf value24 optionalsOf)

/-- ATTACH ACCEPT whose only optional element is the P-TMSI signature. -/
def attAccSig (o t p r0 r1 r2 r3 r4 r5 a b c : UInt8) : Octets :=
  [0x08, 0x02, o, t, p, r0, r1, r2, r3, r4, r5, 0x19, a, b, c]

/-- ROUTING AREA UPDATE ACCEPT whose only optional element is the P-TMSI signature. -/
def rauAccSig (o t r0 r1 r2 r3 r4 r5 a b c : UInt8) : Octets :=
  [0x08, 0x09, o, t, r0, r1, r2, r3, r4, r5, 0x19, a, b, c]

/-- C54: the signature of the last ATTACH ACCEPT or ROUTING AREA UPDATE ACCEPT is the one that is stored. -/
def C54Statement : Prop :=
  ∀ (cfg : GmmCfg) (g : Gmme) (m : Octets) (a b c : UInt8) (r : GmmStep),
    ((∃ o t p r0 r1 r2 r3 r4 r5, m = attAccSig o t p r0 r1 r2 r3 r4 r5 a b c) ∨
     (∃ o t r0 r1 r2 r3 r4 r5, m = rauAccSig o t r0 r1 r2 r3 r4 r5 a b c)) →
    gmmStep cfg yes g (.rx m) = .ok r → r.g.ptmsiSig = value24 a b c

theorem applyReady_sig {cfg : GmmCfg} {b : Octets} {ies : List Ie} {g h : Gmme}
    (e : applyReady cfg b ies g = .ok h) : h.ptmsiSig = g.ptmsiSig := by
  have k1 : ∀ x, (t3312Start x).ptmsiSig = x.ptmsiSig := fun x => by unfold t3312Start; split <;> rfl
  have k2 : ∀ x, (readyStop x).ptmsiSig = x.ptmsiSig := fun x => by
    unfold readyStop; split
    · rw [k1]
    · rfl
  have k3 : ∀ x, (readyNegotiated x).ptmsiSig = x.ptmsiSig := fun x => by
    unfold readyNegotiated; split
    · rw [k1, k2]
    · rfl
  unfold applyReady at e
  split at e
  · obtain ⟨v, _, e⟩ := bind_eq_ok.1 e
    injection e with e; subst e
    rw [k3]
  · injection e with e; subst e
    rw [k3]

theorem toDereg_sig (g : Gmme) : (toDereg g).1.ptmsiSig = g.ptmsiSig := rfl

theorem fsm_sig {cfg : GmmCfg} {ok : GmmOut → Bool} {g : Gmme} {ev : FsmEv} {x : Gmme × List GmmOut}
    (h : gmmFsm cfg ok g ev = some x) : x.1.ptmsiSig = g.ptmsiSig := by
  have k1 : (startAttach cfg ok g).1.ptmsiSig = g.ptmsiSig := by
    unfold startAttach; split
    · rfl
    · dsimp only; split <;> rfl
  have k2 : (startRau cfg ok g).1.ptmsiSig = g.ptmsiSig := by
    unfold startRau; dsimp only; split <;> rfl
  have k3 : ∀ c, (rauRejectedAct g c).1.ptmsiSig = g.ptmsiSig := by
    intro c; unfold rauRejectedAct; split <;> rfl
  unfold gmmFsm at h
  split at h <;> first
    | (cases h; first | rfl | exact k1 | exact k2 | exact k3 _)
    | cases h

theorem dispatch_sig (cfg : GmmCfg) (ok : GmmOut → Bool) (g : Gmme) (pre : List GmmOut) (ev : FsmEv) :
    (dispatch cfg ok g pre ev).g.ptmsiSig = g.ptmsiSig := by
  unfold dispatch
  split
  · rename_i x y h
    exact fsm_sig h
  · rfl

theorem submitThen_sig {cfg : GmmCfg} {ok : GmmOut → Bool} {g : Gmme} {outs : List GmmOut} {ev : FsmEv}
    {r : GmmStep} (h : submitThen cfg ok g outs ev = .ok r) : r.g.ptmsiSig = g.ptmsiSig := by
  unfold submitThen at h
  split at h
  · injection h with h; subst h
    exact dispatch_sig _ _ _ _ _
  · injection h with h; subst h; rfl

/-- What is stored of the three octets. -/
def storedSig (a b c : UInt8) : Nat := a.toNat * 0x100 ||| b.toNat * 0x10 ||| c.toNat

/-- Exactly what the code stores, for both messages, whatever the entity was. -/
theorem c54_stored (cfg : GmmCfg) (ok : GmmOut → Bool) (g : Gmme) (m : Octets) (a b c : UInt8) (r : GmmStep)
    (hm : (∃ o t p r0 r1 r2 r3 r4 r5, m = attAccSig o t p r0 r1 r2 r3 r4 r5 a b c) ∨
      (∃ o t r0 r1 r2 r3 r4 r5, m = rauAccSig o t r0 r1 r2 r3 r4 r5 a b c))
    (h : gmmStep cfg ok g (.rx m) = .ok r) : r.g.ptmsiSig = storedSig a b c := by
  rcases hm with ⟨o, t, p, r0, r1, r2, r3, r4, r5, rfl⟩ | ⟨o, t, r0, r1, r2, r3, r4, r5, rfl⟩
  · change rxAttAcc cfg ok g (attAccSig o t p r0 r1 r2 r3 r4 r5 a b c) = .ok r at h
    unfold rxAttAcc at h
    rw [if_neg (by simp [attAccSig])] at h
    obtain ⟨_, _, h⟩ := bind_eq_ok.1 h
    obtain ⟨_, _, h⟩ := bind_eq_ok.1 h
    obtain ⟨_, _, h⟩ := bind_eq_ok.1 h
    obtain ⟨x, hx, h⟩ := bind_eq_ok.1 h
    generalize applyFixed g _ _ _ = g1 at hx
    have hx2 : x.1.ptmsiSig = storedSig a b c := by
      unfold attAccIes at hx
      rw [if_pos (by simp [attAccSig])] at hx
      rw [show ieParse gmmIes (attAccSig o t p r0 r1 r2 r3 r4 r5 a b c) 11 = .ok [⟨0x19, 12, 3⟩] from rfl] at hx
      dsimp only at hx
      obtain ⟨y, hy, hx⟩ := bind_eq_ok.1 hx
      obtain ⟨z, hz, hx⟩ := bind_eq_ok.1 hx
      have e1 : y = { g1 with ptmsiSig := storedSig a b c } := by
        injection hy with hy; rw [← hy]; rfl
      have e2 := applyReady_sig hz
      have e3 : x = (z, true) := by injection hx with hx; rw [← hx]
      rw [e3, e2, e1]
    unfold attAccEnd at h
    split at h
    · rw [submitThen_sig h, hx2]
    · injection h with h; subst h; exact hx2
  · change rxRauAcc cfg ok g (rauAccSig o t r0 r1 r2 r3 r4 r5 a b c) = .ok r at h
    unfold rxRauAcc at h
    rw [if_neg (by simp [rauAccSig])] at h
    obtain ⟨_, _, h⟩ := bind_eq_ok.1 h
    obtain ⟨_, _, h⟩ := bind_eq_ok.1 h
    obtain ⟨_, _, h⟩ := bind_eq_ok.1 h
    obtain ⟨x, hx, h⟩ := bind_eq_ok.1 h
    generalize applyFixed g _ _ _ = g1 at hx
    have hx2 : x.1.ptmsiSig = storedSig a b c := by
      unfold rauAccIes at hx
      rw [if_pos (by simp [rauAccSig])] at hx
      rw [show ieParse gmmIes (rauAccSig o t r0 r1 r2 r3 r4 r5 a b c) 10 = .ok [⟨0x19, 11, 3⟩] from rfl] at hx
      dsimp only at hx
      obtain ⟨y, hy, hx⟩ := bind_eq_ok.1 hx
      have e1 : y = { g1 with ptmsiSig := storedSig a b c } := by
        injection hy with hy; rw [← hy]; rfl
      obtain ⟨z, hz, hx⟩ := bind_eq_ok.1 hx
      have e3 : z = some y := by injection hz with hz; rw [← hz]
      subst e3
      dsimp only at hx
      obtain ⟨w, hw, hx⟩ := bind_eq_ok.1 hx
      have e4 : w = true := by injection hw with hw; rw [← hw]
      subst e4
      rw [if_pos rfl] at hx
      obtain ⟨u, hu, hx⟩ := bind_eq_ok.1 hx
      obtain ⟨v, hv, hx⟩ := bind_eq_ok.1 hx
      obtain ⟨k, hk, hx⟩ := bind_eq_ok.1 hx
      have e5 : u = { y with npduPresent := false } := by injection hu with hu; rw [← hu]
      have e6 := applyReady_sig hv
      have e7 : k = { v with pdpStatus := none } := by injection hk with hk; rw [← hk]
      have e8 : x = (k, true) := by injection hx with hx; rw [← hx]
      rw [e8, e7]
      change v.ptmsiSig = _
      rw [e6, e5, e1]
    unfold rauAccEnd at h
    split at h
    · rw [submitThen_sig h, hx2]
    · injection h with h; subst h; exact hx2

theorem storedSig_low (c : UInt8) : storedSig 0 0 c = value24 0 0 c := by
  unfold storedSig value24; simp

theorem storedSig_lt (a b c : UInt8) : storedSig a b c < 0x10000 := by
  unfold storedSig
  have ha := a.toNat_lt
  have hb := b.toNat_lt
  have hc := c.toNat_lt
  exact Nat.or_lt_two_pow (n := 16) (Nat.or_lt_two_pow (n := 16) (by omega) (by omega)) (by omega)

theorem storedSig_right (a b c : UInt8) : storedSig a b c = value24 a b c ↔ a = 0 ∧ b = 0 := by
  constructor
  · intro h
    have h1 := storedSig_lt a b c
    have ha : a.toNat = 0 := by
      rw [h] at h1; unfold value24 at h1; omega
    have ha' : a = 0 := UInt8.toNat_inj.1 (by rw [ha]; rfl)
    subst ha'
    refine ⟨rfl, ?_⟩
    have h2 : ∀ b c : Fin 256, (b.val * 0x10 ||| c.val) = b.val * 0x100 + c.val → b.val = 0 := by decide +kernel
    have h3 := h2 ⟨b.toNat, b.toNat_lt⟩ ⟨c.toNat, c.toNat_lt⟩ (by
      unfold storedSig value24 at h
      simpa using h)
    exact UInt8.toNat_inj.1 (by rw [show b.toNat = 0 from h3]; rfl)
  · rintro ⟨rfl, rfl⟩
    exact storedSig_low c

/-- C54 does not hold: the octets are shifted by 8 and 4 bits instead of 16 and 8. -/
theorem c54_violated : ¬ C54Statement := by
  intro h
  have e : ∃ r, gmmStep defaultCfg yes (gmmeAlloc true 5 [2, 4, 1] 0)
      (.rx (attAccSig 1 0 0 0 0 0 0 0 0 0x55 0x66 0x77)) = .ok r := ⟨_, rfl⟩
  obtain ⟨r, hr⟩ := e
  have hm := Or.inl (b := (∃ o t r0 r1 r2 r3 r4 r5, attAccSig 1 0 0 0 0 0 0 0 0 0x55 0x66 0x77 =
    rauAccSig o t r0 r1 r2 r3 r4 r5 0x55 0x66 0x77))
    (show ∃ o t p r0 r1 r2 r3 r4 r5, attAccSig 1 0 0 0 0 0 0 0 0 0x55 0x66 0x77 =
    attAccSig o t p r0 r1 r2 r3 r4 r5 0x55 0x66 0x77 from ⟨1, 0, 0, 0, 0, 0, 0, 0, 0, rfl⟩)
  have h1 := h defaultCfg _ _ 0x55 0x66 0x77 r hm hr
  have h2 := c54_stored defaultCfg yes _ _ 0x55 0x66 0x77 r hm hr
  rw [h2, storedSig_right] at h1
  exact absurd h1.1 (by decide)

/-- The signatures for which C54 holds are those whose upper sixteen bits are zero: 256 out of 2^24. -/
theorem c54_right_partial (cfg : GmmCfg) (ok : GmmOut → Bool) (g : Gmme) (m : Octets) (a b c : UInt8)
    (r : GmmStep)
    (hm : (∃ o t p r0 r1 r2 r3 r4 r5, m = attAccSig o t p r0 r1 r2 r3 r4 r5 a b c) ∨
      (∃ o t r0 r1 r2 r3 r4 r5, m = rauAccSig o t r0 r1 r2 r3 r4 r5 a b c))
    (h : gmmStep cfg ok g (.rx m) = .ok r) : r.g.ptmsiSig = value24 a b c ↔ a = 0 ∧ b = 0 := by
  rw [c54_stored cfg ok g m a b c r hm h]
  exact storedSig_right a b c

/-- A stored signature of 24 bits is sent as it is in ATTACH REQUEST with a P-TMSI. -/
theorem c54_sent_partial (attType ptmsi s : Nat) (imsi : List Nat) (ra : Octets) (t3314 : Nat)
    (hs : s < 0x1000000) (hp : ptmsi ≠ reservedTmsi) (hr : ra.length = 6) (hi : imsi.length ≤ 15) :
    ∃ b x a1 a2 a3, buildAttachReq attType false ptmsi s imsi ra t3314 = some b ∧
      readAttachReq b = some x ∧ valueOf x.opts 0x19 = some [a1, a2, a3] ∧ value24 a1 a2 a3 = s := by
  obtain ⟨b, hb⟩ : ∃ b, buildAttachReq attType false ptmsi s imsi ra t3314 = some b := ⟨_, rfl⟩
  obtain ⟨mi, _, h⟩ := c89_attach_partial attType false ptmsi s imsi ra t3314 hr hi b hb
  refine ⟨b, _, UInt8.ofNat (s / 0x10000), UInt8.ofNat (s / 0x100), UInt8.ofNat s, hb, h, ?_, ?_⟩
  · unfold attachReqWanted
    simp [hp, valueOf]
  · unfold value24
    simp only [UInt8.toNat_ofNat']
    omega

end Verif.Props
