import Verif.Props.SmData
/-!
# C200: the network can deactivate a PDP context
-/
namespace Verif.Props
open Verif Verif.Sm

/-! ## Specification -/

/-- DEACTIVATE PDP CONTEXT REQUEST (3GPP TS 24.008, 9.5.8): transaction identifier and protocol discriminator, message
type, SM cause, and further elements. -/
def netDeactivate (ti cause : UInt8) (more : Octets) : Octets := (ti * 16 + 0x0a) :: 0x46 :: cause :: more

/-- **C200**, full statement.  In every history, an active PDP context whose deactivation the network requests ends, and
DEACTIVATE PDP CONTEXT ACCEPT (message type 47) is sent (6.1.3.4.2). -/
def C200Statement : Prop :=
  ∀ l c t, smRun smInit l = .ok (c, t) → ∀ sess id n ti cause c' o rc, c.bySess sess = some (id, n) →
    stOf c id n = some .active → smStep c (.unitdataInd sess (netDeactivate ti cause [])) = .ok (c', o, rc) →
    stOf c' id n ≠ some .active ∧ ∃ x b m, SmOut.unitdataReq x (b :: 0x47 :: m) ∈ o

/-! ## What happens -/

/-- Messages other than ACTIVATE PDP CONTEXT ACCEPT and REJECT are refused: nothing changes and nothing is sent. -/
theorem c200_refused (c : SmCtx) (sess : Nat) (hd ty : UInt8) (m : Octets) (h2 : ty ≠ 0x42) (h3 : ty ≠ 0x43) :
    smStep c (.unitdataInd sess (hd :: ty :: m)) = .ok (c, [], some .einval) := by
  simp only [smStep, withSess]
  split
  · rfl
  · split
    · rfl
    · unfold smRx
      rw [if_neg (by simp), show Verif.rd (hd :: ty :: m) 1 = .ok ty.toNat from rfl]
      dsimp only
      have k : ∀ a : UInt8, ty ≠ a → ty.toNat ≠ a.toNat := fun a hn e => hn (UInt8.toNat_inj.1 e)
      rw [if_neg (show ty.toNat ≠ 66 from k 0x42 h2), if_neg (show ty.toNat ≠ 67 from k 0x43 h3)]

/-- **C200 holds of no PDP context**: the request of the network is refused in every state. -/
theorem c200_never (c : SmCtx) (sess : Nat) (ti cause : UInt8) (more : Octets) :
    smStep c (.unitdataInd sess (netDeactivate ti cause more)) = .ok (c, [], some .einval) :=
  c200_refused c sess _ 0x46 _ (by decide) (by decide)

/-- No session management message at all ends an active PDP context. -/
theorem c200_no_message (l : List SmIn) (c : SmCtx) (t : List SmObs) (h : smRun smInit l = .ok (c, t)) (sess : Nat)
    (b : Octets) (c' : SmCtx) (o : List SmOut) (rc : Option Errno) (hs : smStep c (.unitdataInd sess b) = .ok (c', o, rc))
    (id n : Nat) (ha : stOf c id n = some .active) : stOf c' id n = some .active := by
  by_cases hn : stOf c' id n = some .active
  · exact hn
  · rcases c83_partial l c t h _ c' o rc hs id n ha hn with ⟨_, e⟩ | ⟨⟨_, _, e⟩, _⟩ <;> cases e

theorem good_active : ∃ c t, smRun smInit c50Good = .ok (c, t) ∧ stOf c 1 5 = some .active ∧ c.bySess 0 = some (1, 5) ∧
    nsapiValid 5 = true := by
  refine ⟨_, _, rfl, ?_, ?_, ?_⟩ <;> decide +kernel

/-- **C200 is violated** by an active PDP context that the network wants to deactivate. -/
theorem c200_violated : ¬ C200Statement := by
  intro h
  obtain ⟨c, t, h1, h2, h3, -⟩ := good_active
  exact (h _ c t h1 0 1 5 8 36 _ _ _ h3 h2 (c200_never ..)).1 h2

/-! ## What holds -/

/-- **C200** (partial): the network can end PDP contexts with the PDP context status of a routing area update.  SNDCP is
told to deactivate each that the network calls inactive, and when it has answered, the context has ended and the user is
told. -/
theorem c200_partial (l : List SmIn) (c : SmCtx) (t : List SmObs) (h : smRun smInit l = .ok (c, t))
    (sess id i p g tl n : Nat) (o1 o2 : UInt8) (hb : c.bySess sess = some (id, i)) (ha : stOf c id n = some .active)
    (hv : nsapiValid n = true) (hst : Spec.Sm.statusActive o1 o2 n = false) :
    ∃ c' o, smStep c (.modifyInd sess p g tl (some (o1.toNat + 256 * o2.toNat))) = .ok (c', o, none) ∧
      SmOut.snsmDeactInd tl n ∈ o ∧ stOf c' id n = some .active ∧
      (c'.msByTlli tl = some id → ∀ c2 o2 rc, smStep c' (.snsmDeactRsp tl n) = .ok (c2, o2, rc) →
        stOf c2 id n = some .inactive ∧ ∃ pco, o2 = [.deactInd id n causeReactRqd pco]) := by
  have hi := run_inv smInit_inv h
  obtain ⟨-, -, s0, hs0, -⟩ := bySess_some hb
  have hs0' : (c.ms id).pdp i = some s0 := hs0
  have hstep : ∃ c' o, smStep c (.modifyInd sess p g tl (some (o1.toNat + 256 * o2.toNat))) = .ok (c', o, none) := by
    refine ⟨c.setMs id (withGmm (c.ms id) p g tl), statusOuts (withGmm (c.ms id) p g tl) (o1.toNat + 256 * o2.toNat), ?_⟩
    simp only [smStep, withSess, hb, hs0']
  obtain ⟨c', o, hs⟩ := hstep
  refine ⟨c', o, hs, ?_⟩
  rcases status_step hi hs with ⟨-, e, -⟩ | ⟨id', i', s, -, -, -, -, h5, h6, h7⟩
  · cases e
  rw [hb] at h6
  injection h6 with h6
  injection h6 with h6 h6'
  subst h6 h6'
  have hsome : (c.slot id n).isSome := by
    unfold stOf at ha
    cases hx : c.slot id n with
    | none => rw [hx] at ha; cases ha
    | some _ => rfl
  have hslot : c'.slot id n = c.slot id n := by
    rw [h7]
    unfold SmCtx.slot SmCtx.setMs withGmm
    simp
  refine ⟨(h5 _).2 ⟨n, rfl, hsome, hst⟩, by unfold stOf; rw [hslot]; exact ha, fun hm c2 out rc hr => ?_⟩
  obtain ⟨a, hx⟩ := Option.isSome_iff_exists.1 hsome
  have hact : a.st = .active := by unfold stOf at ha; rw [hx] at ha; injection ha
  have hns : a.nsapi = n := (hi.slot id n a hx).1
  have hx' : (c'.ms id).pdp n = some a := hslot.trans hx
  simp only [smStep, withNsapi, hm, hv, if_true, hx'] at hr
  by_cases hp : a.pco.length ≤ pcoPrimMax
  · have hd : deactOut id a causeReactRqd = .ok (.deactInd id a.nsapi causeReactRqd a.pco) := by
      unfold deactOut pcoToPrim
      rw [if_pos hp]
      rfl
    rw [hd] at hr
    dsimp only at hr
    unfold smDispatch smFsm at hr
    rw [hact] at hr
    dsimp only at hr
    injection hr with hr
    injection hr with r1 r2
    injection r2 with r2 r3
    subst r1 r2
    refine ⟨?_, a.pco, by rw [hns]; rfl⟩
    unfold stOf
    rw [slot_put, if_pos ⟨rfl, rfl⟩]
    rfl
  · have hd : deactOut id a causeReactRqd = .ub .outOfBounds := by
      unfold deactOut pcoToPrim
      rw [if_neg hp]
      rfl
    rw [hd] at hr
    cases hr

/-- The context of `good_active`, with a status that calls all contexts inactive, and SNDCP's answer. -/
example : ∃ c t, smRun smInit (c50Good ++ [.modifyInd 0 7 8 0xc0000002 (some 0), .snsmDeactRsp 0xc0000002 5]) = .ok (c, t) ∧
    stOf c 1 5 = some .inactive ∧ (t.getLast?.map SmObs.outs) = some [.deactInd 1 5 causeReactRqd []] ∧
    Spec.Sm.statusActive 0 0 5 = false := by
  refine ⟨_, _, rfl, ?_, ?_, ?_⟩ <;> decide +kernel

end Verif.Props
