import Verif.Props.GmmRefuse
/-!
# C157: what a refused message may change at most
-/
namespace Verif.Props
open Verif Verif.Gmm Verif.Gsm

/-- Two entities that differ at most in the routing area, the P-TMSI signature, and the READY and the periodic
update timers. -/
def MinorDiff (g h : Gmme) : Prop :=
  h = { g with ra := h.ra, ptmsiSig := h.ptmsiSig, run3314 := h.run3314, t3314s := h.t3314s, run3312 := h.run3312,
               t3312s := h.t3312s }

/-- Two entities that may differ in the P-TMSI and the TLLI, too. -/
def NameDiff (g h : Gmme) : Prop :=
  MinorDiff { g with ptmsi := h.ptmsi, oldPtmsi := h.oldPtmsi, tlli := h.tlli, oldTlli := h.oldTlli } h

theorem MinorDiff.refl (g : Gmme) : MinorDiff g g := rfl

theorem MinorDiff.trans {a b c : Gmme} (h : MinorDiff a b) (k : MinorDiff b c) : MinorDiff a c := by
  unfold MinorDiff at *
  rw [h] at k
  exact k

theorem MinorDiff.name {g h : Gmme} (k : MinorDiff g h) : NameDiff g h := by
  unfold NameDiff
  unfold MinorDiff at *
  have h1 : h.ptmsi = g.ptmsi := by rw [k]
  have h2 : h.oldPtmsi = g.oldPtmsi := by rw [k]
  have h3 : h.tlli = g.tlli := by rw [k]
  have h4 : h.oldTlli = g.oldTlli := by rw [k]
  rw [h1, h2, h3, h4]
  exact k

theorem t3312Start_minor (g : Gmme) : MinorDiff g (t3312Start g) := by
  unfold t3312Start
  split <;> rfl

theorem readyStop_minor (g : Gmme) : MinorDiff g (readyStop g) := by
  unfold readyStop
  split
  · exact MinorDiff.trans (rfl : MinorDiff g { g with run3314 := false }) (t3312Start_minor _)
  · rfl

theorem readyNegotiated_minor (g : Gmme) : MinorDiff g (readyNegotiated g) := by
  unfold readyNegotiated
  split
  · exact (readyStop_minor _).trans (t3312Start_minor _)
  · rfl

theorem applyFixed_minor (g : Gmme) (t : Nat) (f : Bool) (ra : Octets) : MinorDiff g (applyFixed g t f ra) := by
  have h1 : MinorDiff g (if tmrAssigned t = 0 then t3312Stop { g with t3312s := 0 }
      else { g with t3312s := tmrAssigned t }) := by split <;> rfl
  unfold applyFixed
  generalize (if tmrAssigned t = 0 then t3312Stop { g with t3312s := 0 }
      else { g with t3312s := tmrAssigned t }) = x at h1 ⊢
  have h2 : MinorDiff g (if f then readyStop x else x) := by
    split
    · exact h1.trans (readyStop_minor _)
    · exact h1
  generalize (if f then readyStop x else x) = y at h2 ⊢
  exact h2.trans rfl

theorem applySig_minor {b : Octets} {ies : List Ie} {g h : Gmme} (e : applySig b ies g = .ok h) : MinorDiff g h := by
  unfold applySig at e
  split at e
  · obtain ⟨v, _, e⟩ := bind_eq_ok.1 e
    injection e with e; subst e; rfl
  · injection e with e; subst e; rfl

theorem applyReady_minor {cfg : GmmCfg} {b : Octets} {ies : List Ie} {g h : Gmme}
    (e : applyReady cfg b ies g = .ok h) : MinorDiff g h := by
  unfold applyReady at e
  split at e
  · obtain ⟨v, _, e⟩ := bind_eq_ok.1 e
    injection e with e; subst e
    exact MinorDiff.trans (rfl : MinorDiff g { g with t3314s := tmrAssigned v }) (readyNegotiated_minor _)
  · injection e with e; subst e
    exact MinorDiff.trans (rfl : MinorDiff g { g with t3314s := cfg.t3314 }) (readyNegotiated_minor _)

theorem applyPtmsi_name {b : Octets} {ies : List Ie} {g h : Gmme} (e : applyPtmsi b ies g = .ok (some h)) :
    h = { g with ptmsi := h.ptmsi, oldPtmsi := h.oldPtmsi, tlli := h.tlli, oldTlli := h.oldTlli } := by
  unfold applyPtmsi at e
  split at e
  · obtain ⟨v, _, e⟩ := bind_eq_ok.1 e
    injection e with e
    rw [Option.map_eq_some_iff] at e
    obtain ⟨p, _, rfl⟩ := e
    rfl
  · injection e with e; injection e with e; subst e; rfl

theorem MinorDiff.then_name {a b c : Gmme} (h : MinorDiff a b)
    (k : c = { b with ptmsi := c.ptmsi, oldPtmsi := c.oldPtmsi, tlli := c.tlli, oldTlli := c.oldTlli }) :
    NameDiff a c := by
  unfold NameDiff
  unfold MinorDiff at *
  have h1 : c.ra = b.ra := by rw [k]
  have h2 : c.ptmsiSig = b.ptmsiSig := by rw [k]
  have h3 : c.run3314 = b.run3314 := by rw [k]
  have h4 : c.t3314s = b.t3314s := by rw [k]
  have h5 : c.run3312 = b.run3312 := by rw [k]
  have h6 : c.t3312s = b.t3312s := by rw [k]
  rw [h1, h2, h3, h4, h5, h6]
  rw [h] at k
  exact k

/-- The optional part of an ATTACH ACCEPT that is refused. -/
theorem attAccIes_refused {cfg : GmmCfg} {b : Octets} {g : Gmme} {r : Gmme × Bool}
    (e : attAccIes cfg b g = .ok r) (hf : r.2 = false) : MinorDiff g r.1 := by
  unfold attAccIes at e
  split at e
  · split at e
    · injection e with e; subst e; rfl
    · cases e
    · obtain ⟨g1, h1, e⟩ := bind_eq_ok.1 e
      obtain ⟨g2, h2, e⟩ := bind_eq_ok.1 e
      obtain ⟨o, h3, e⟩ := bind_eq_ok.1 e
      cases o with
      | none => injection e with e; subst e; exact (applySig_minor h1).trans (applyReady_minor h2)
      | some g3 => injection e with e; subst e; cases hf
  · injection e with e; subst e; cases hf

/-- The optional part of a ROUTING AREA UPDATE ACCEPT that is refused. -/
theorem rauAccIes_refused {cfg : GmmCfg} {b : Octets} {g0 g : Gmme} {r : Gmme × Bool} (h0 : MinorDiff g0 g)
    (e : rauAccIes cfg b g = .ok r) (hf : r.2 = false) : NameDiff g0 r.1 := by
  unfold rauAccIes at e
  split at e
  · split at e
    · injection e with e; subst e; exact h0.name
    · cases e
    · obtain ⟨g1, h1, e⟩ := bind_eq_ok.1 e
      obtain ⟨o, h2, e⟩ := bind_eq_ok.1 e
      cases o with
      | none => injection e with e; subst e; exact (h0.trans (applySig_minor h1)).name
      | some g2 =>
        obtain ⟨im, _, e⟩ := bind_eq_ok.1 e
        split at e
        · obtain ⟨a1, _, e⟩ := bind_eq_ok.1 e
          obtain ⟨a2, _, e⟩ := bind_eq_ok.1 e
          obtain ⟨a3, _, e⟩ := bind_eq_ok.1 e
          injection e with e; subst e; cases hf
        · injection e with e; subst e
          exact (h0.trans (applySig_minor h1)).then_name (applyPtmsi_name h2)
  · injection e with e; subst e; cases hf

theorem submitThen_silent {cfg : GmmCfg} {ok : GmmOut → Bool} {g : Gmme} {a : GmmOut} {l : List GmmOut} {ev : FsmEv}
    {r : GmmStep} (h : submitThen cfg ok g (a :: l) ev = .ok r) (hr : r.rc = some .einval) (ho : r.out = []) : False := by
  rcases submitThen_cases h with h | h
  · subst h
    unfold dispatch at hr
    split at hr <;> cases hr
  · subst h
    exact submit_nil ho

/-- A message of a known type goes to its handler, if it has any effect on the entity. -/
theorem rx_handler {cfg : GmmCfg} {ok : GmmOut → Bool} {g : Gmme} {b : Octets} {r : GmmStep} {k : UInt8}
    (hk : b[1]? = some k) (h : gmmStep cfg ok g (.rx b) = .ok r) : r.g = g ∨ gmmRx cfg ok g b k.toNat = .ok r := by
  change rxLlUnitdata cfg ok g b = .ok r at h
  unfold rxLlUnitdata at h
  split at h
  · injection h with h; subst h; exact .inl rfl
  obtain ⟨pd, _, h⟩ := bind_eq_ok.1 h
  obtain ⟨mt, hm, h⟩ := bind_eq_ok.1 h
  unfold rd at hm
  rw [hk] at hm
  injection hm with hm
  subst hm
  split at h
  · exact .inr h
  · split at h
    · injection h with h; subst h; exact .inl rfl
    · cases h

/-- **C157** (partial): what a message other than ROUTING AREA UPDATE REJECT changes at most when it is
refused.  The state, the session, the PDP contexts, the keys and the counters never change; the P-TMSI and the
TLLI only with ROUTING AREA UPDATE ACCEPT. -/
theorem c157_keeps_partial {cfg : GmmCfg} {ok : GmmOut → Bool} {g : Gmme} {b : Octets} {r : GmmStep}
    (ht : b[1]? ≠ some 0x0b) (h : gmmStep cfg ok g (.rx b) = .ok r) (hr : r.rc = some .einval) (ho : r.out = []) :
    NameDiff g r.g ∧ (b[1]? ≠ some 0x09 → MinorDiff g r.g) := by
  by_cases h2 : b[1]? = some 0x02
  · suffices k : MinorDiff g r.g from ⟨k.name, fun _ => k⟩
    rcases rx_handler h2 h with h | h
    · rw [h]; exact .refl g
    change rxAttAcc cfg ok g b = .ok r at h
    unfold rxAttAcc at h
    split at h
    · injection h with h; subst h; exact .refl g
    obtain ⟨o, _, h⟩ := bind_eq_ok.1 h
    obtain ⟨tm, _, h⟩ := bind_eq_ok.1 h
    obtain ⟨ra, _, h⟩ := bind_eq_ok.1 h
    obtain ⟨x, hx, h⟩ := bind_eq_ok.1 h
    unfold attAccEnd at h
    split at h
    · exact (submitThen_silent h hr ho).elim
    · next hf =>
      injection h with h; subst h
      exact (applyFixed_minor _ _ _ _).trans (attAccIes_refused hx (Bool.eq_false_iff.2 hf))
  · by_cases h9 : b[1]? = some 0x09
    · refine ⟨?_, fun k => absurd h9 k⟩
      rcases rx_handler h9 h with h | h
      · rw [h]; exact (MinorDiff.refl g).name
      change rxRauAcc cfg ok g b = .ok r at h
      unfold rxRauAcc at h
      split at h
      · injection h with h; subst h; exact (MinorDiff.refl g).name
      obtain ⟨o, _, h⟩ := bind_eq_ok.1 h
      obtain ⟨tm, _, h⟩ := bind_eq_ok.1 h
      obtain ⟨ra, _, h⟩ := bind_eq_ok.1 h
      obtain ⟨x, hx, h⟩ := bind_eq_ok.1 h
      unfold rauAccEnd at h
      split at h
      · exact (submitThen_silent h hr ho).elim
      · next hf =>
        injection h with h; subst h
        exact rauAccIes_refused (applyFixed_minor _ _ _ _) hx (Bool.eq_false_iff.2 hf)
    · have k := c157_partial ⟨h2, h9, ht⟩ h hr ho
      rw [k]
      exact ⟨(MinorDiff.refl g).name, fun _ => .refl g⟩

/-- Both kinds of messages that are refused and change something, at a registered mobile station. -/
example : (∃ r, gmmStep defaultCfg yes readyMs (.rx attAccCut) = .ok r ∧ r.rc = some .einval ∧ r.out = [] ∧ r.g ≠ readyMs) ∧
    (∃ r, gmmStep defaultCfg yes readyMs (.rx rauAccOdd) = .ok r ∧ r.rc = some .einval ∧ r.out = [] ∧
      r.g.tlli ≠ readyMs.tlli) :=
  ⟨⟨_, rfl, by decide +kernel, by decide +kernel, by decide +kernel⟩,
   ⟨_, rfl, by decide +kernel, by decide +kernel, by decide +kernel⟩⟩

end Verif.Props
