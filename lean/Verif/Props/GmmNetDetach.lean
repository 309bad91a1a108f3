import Verif.Props.GmmRefuse
/-!
# C199: the network can detach a mobile station
-/
namespace Verif.Props
open Verif Verif.Gmm Verif.Gsm

/-! ## Specification -/

/-- DETACH REQUEST from the network (3GPP TS 24.008, 9.4.5.1): the type of detach and Force to standby in one octet, and
the cause if there is one. -/
def netDetach (type standby : UInt8) (cause : Option UInt8) : Octets :=
  [0x08, 0x05, standby * 16 + type] ++ match cause with
    | none => []
    | some c => [0x25, c]

/-- AUTHENTICATION AND CIPHERING REJECT (9.4.11). -/
def authReject : Octets := [0x08, 0x14]

/-- **C199**, full statement.  In every history, a registered mobile station that is detached by the network (with or
without having to attach again) answers with DETACH ACCEPT and is no longer registered (4.7.4.2.2), and one whose
authentication is rejected is no longer registered (4.7.7.5). -/
def C199Statement : Prop :=
  ∀ cfg g t, GmmReach cfg g t → g.st = .reg → ∀ ok r,
    (∀ type standby cause, type = 1 ∨ type = 2 → standby < 2 →
      gmmStep cfg ok g (.rx (netDetach type standby cause)) = .ok r →
      r.g.st ≠ .reg ∧ ∃ tlli, GmmOut.llUnitdata tlli [0x08, 0x06] ∈ r.out) ∧
    (gmmStep cfg ok g (.rx authReject) = .ok r → r.g.st ≠ .reg)

/-! ## What happens -/

/-- **C199 holds of no mobile station**: DETACH REQUEST from the network is refused, whatever the state and whatever the
message says; there is no answer and nobody is told. -/
theorem c199_never (cfg : GmmCfg) (ok : GmmOut → Bool) (g : Gmme) (type standby : UInt8) (cause : Option UInt8) :
    gmmStep cfg ok g (.rx (netDetach type standby cause)) = .ok ⟨g, [], some .einval⟩ := by
  cases cause <;> rfl

/-- No message from the network at all ends the registration of a mobile station that is not updating. -/
theorem c199_no_message {cfg : GmmCfg} {ok : GmmOut → Bool} {g : Gmme} {b : Octets} {r : GmmStep} (h : g.st = .reg)
    (hr : gmmStep cfg ok g (.rx b) = .ok r) : r.g.st = .reg := by
  change rxLlUnitdata cfg ok g b = .ok r at hr
  cases rx_shape hr with
  | quiet hs _ => exact hs.st.trans h
  | event g1 pre fe hs _ hf hg _ =>
    have h1 : g1.st = .reg := hs.st.trans h
    rw [hg]
    unfold dispatch gmmFsm
    rw [h1]
    cases fe <;> first | exact h1 | exact hf.elim

/-- **C199 is violated** by a registered mobile station. -/
theorem c199_violated : ¬ C199Statement := by
  intro h
  obtain ⟨t, ht⟩ := readyMs_reach
  have hst : readyMs.st = .reg := by decide +kernel
  exact ((h _ _ t ht hst yes _).1 1 0 none (.inl rfl) (by decide) (c199_never ..)).1 hst

/-- ... and by one whose authentication is rejected. -/
theorem c199_violated_auth : ∃ cfg g t r, GmmReach cfg g t ∧ g.st = .reg ∧
    gmmStep cfg yes g (.rx authReject) = .ok r ∧ r.g.st = .reg := by
  obtain ⟨t, ht⟩ := readyMs_reach
  have hst : readyMs.st = .reg := by decide +kernel
  exact ⟨_, _, t, _, ht, hst, rfl, c199_no_message (b := authReject) (cfg := defaultCfg) (ok := yes) hst rfl⟩

/-! ## What holds -/

theorem rauReject_step (cfg : GmmCfg) (ok : GmmOut → Bool) (g : Gmme) (cause standby : UInt8) :
    ∃ g1, Same g g1 ∧ gmmStep cfg ok g (.rx [0x08, 0x0b, cause, standby]) =
      .ok { dispatch cfg ok g1 [] (.rauRejected cause.toNat) with rc := some .einval } := by
  refine ⟨if standby.toNat / 16 = 1 then readyStop g else g, ?_, rfl⟩
  split
  · exact readyStop_same _
  · exact Same.refl _

/-- **C199** (partial): the network can end the registration of a mobile station that updates its routing area, with
ROUTING AREA UPDATE REJECT and any cause but 13, 15 and 25, with which it stays registered; session management is told if
it has asked for the registration, and nothing is sent. -/
theorem c199_partial (cfg : GmmCfg) (ok : GmmOut → Bool) (g : Gmme) (hst : g.st = .rauInit) (cause standby : UInt8) :
    ∃ r, gmmStep cfg ok g (.rx [0x08, 0x0b, cause, standby]) = .ok r ∧ (∀ tlli m, GmmOut.llUnitdata tlli m ∉ r.out) ∧
      (cause = 13 ∨ cause = 15 ∨ cause = 25 → r.g.st = .reg ∧ r.out = []) ∧
      (¬ (cause = 13 ∨ cause = 15 ∨ cause = 25) → r.g.st = .dereg ∧
        r.out = if g.sess = sessUnassigned then [] else [.releaseInd g.sess]) := by
  obtain ⟨g1, hs, e⟩ := rauReject_step cfg ok g cause standby
  have h1 : g1.st = .rauInit := hs.st.trans hst
  have hd : dispatch cfg ok g1 [] (.rauRejected cause.toNat) =
      ⟨(rauRejectedAct g1 cause.toNat).1, (rauRejectedAct g1 cause.toNat).2, none⟩ := by
    unfold dispatch gmmFsm
    rw [h1]
    rfl
  have hc : staysRegistered cause.toNat = true ↔ (cause = 13 ∨ cause = 15 ∨ cause = 25) := by
    unfold staysRegistered
    rw [decide_eq_true_iff]
    have k : ∀ a : UInt8, cause.toNat = a.toNat ↔ cause = a := fun a => UInt8.toNat_inj
    exact or_congr (k 13) (or_congr (k 15) (k 25))
  rw [e, hd]
  refine ⟨_, rfl, ?_⟩
  dsimp only
  unfold rauRejectedAct
  by_cases hk : cause = 13 ∨ cause = 15 ∨ cause = 25
  · rw [if_pos (hc.2 hk)]
    exact ⟨fun _ _ x => (by cases x), fun _ => ⟨rfl, rfl⟩, fun x => absurd hk x⟩
  · rw [if_neg (fun x => hk (hc.1 x))]
    have ho : (toDereg g1).2 = if g.sess = sessUnassigned then [] else [.releaseInd g.sess] := by
      unfold toDereg
      dsimp only
      rw [h1, hs.sess]
      by_cases hx : g.sess = sessUnassigned
      · rw [if_pos hx, if_neg (fun y => y.2 hx)]
      · rw [if_neg hx, if_pos ⟨by decide, hx⟩]
    refine ⟨?_, fun x => absurd x hk, fun _ => ⟨rfl, ho⟩⟩
    rw [ho]
    intro tlli m hm
    split at hm
    · cases hm
    · rcases List.mem_singleton.1 hm with ⟨⟩

/-- A mobile station that updates its routing area: registered, and the READY timer and then T3312 have run out. -/
def updatingMs : Gmme :=
  finalOf (gmmRun defaultCfg ms0 [⟨.attachReq prm0, yes⟩, ⟨.rx attAccMsg, yes⟩, ⟨.llcTransmitted, yes⟩, ⟨.t3314, yes⟩,
    ⟨.t3312, yes⟩])

example : (∃ t, GmmReach defaultCfg updatingMs t) ∧ updatingMs.st = .rauInit :=
  ⟨⟨_, reach0 (l := [⟨.attachReq prm0, yes⟩, ⟨.rx attAccMsg, yes⟩, ⟨.llcTransmitted, yes⟩, ⟨.t3314, yes⟩,
    ⟨.t3312, yes⟩]) (by decide +kernel)⟩, by decide +kernel⟩

/-- The message of the refutation. -/
example : netDetach 1 0 (some 9) = [0x08, 0x05, 0x01, 0x25, 9] := by decide

end Verif.Props
