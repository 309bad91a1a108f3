import Verif.Sm.EntityLemmas
import Verif.Spec.Sm
import Verif.Props.SmPdu
/-!
# C50, C51, C79–C84: PDP context activation
-/
namespace Verif.Props
open Verif Verif.Sm Verif.Gsm
open Verif.Spec.Sm (Mark Try owed NoSurplus TriesAtMost)

/-! ## C50 -/

/-- A confirmation for the context of mobile station `id` at NSAPI `n`. -/
def cnfMark (id n : Nat) : SmOut → Option Mark
  | .actAcc a b _ _ _ _ => if a = id ∧ b = n then some (.told true) else none
  | .actRej a b _ _ => if a = id ∧ b = n then some (.told false) else none
  | _ => none

/-- An activation request for that context that was taken (the primitive returned no error). -/
def reqMark (id n : Nat) (ob : SmObs) : List Mark :=
  match ob.ev with
  | .actReq r => if r.msId = id ∧ r.nsapi = n ∧ ob.rc = none then [.asked] else []
  | _ => []

/-- What the user of the context sees. -/
def marks (id n : Nat) : List SmObs → List Mark
  | [] => []
  | ob :: t => reqMark id n ob ++ ob.outs.filterMap (cnfMark id n) ++ marks id n t

/-- The state of the context. -/
def stOf (c : SmCtx) (id n : Nat) : Option SmSt := (c.slot id n).map Sme.st

/-- C50: in every history, for every PDP context, confirmations answer requests one by one, an answer is
owed exactly as long as the procedure runs, and the confirmation says "accepted" exactly if the context
is active then. -/
def C50Statement : Prop :=
  ∀ l c t, smRun smInit l = .ok (c, t) → ∀ id n,
    (∃ w, owed false (marks id n t) = some w ∧ (w = true ↔ stOf c id n = some .pending)) ∧
    ∀ e c' o rc, smStep c e = .ok (c', o, rc) → ∀ acc, .told acc ∈ o.filterMap (cnfMark id n) →
      (acc = true ↔ stOf c' id n = some .active)

/-- A request whose answer never comes: GMM refuses to establish. -/
def c50Events : List SmIn :=
  [.actReq ⟨1, 5, 3, ⟨0x21, none, none⟩, [], [], [], 7, 8⟩, .estRej 0]

theorem c50_violated : ¬ C50Statement := by
  intro h
  have run : ∃ c t, smRun smInit c50Events = .ok (c, t) ∧ marks 1 5 t = [.asked] ∧
      stOf c 1 5 = some .inactive := by
    refine ⟨_, _, rfl, ?_, ?_⟩ <;> decide +kernel
  obtain ⟨c, t, h1, h2, h3⟩ := run
  obtain ⟨w, h4, h5⟩ := (h _ c t h1 1 5).1
  rw [h2] at h4
  have : w = true := by simpa [owed] using h4.symm
  rw [h5, h3] at this
  exact absurd this (by decide)

/-- A REJECT with cause 0 is reported as accepted, although the context is gone. -/
theorem c50_violated_cause0 :
    ∃ l c t e c' o rc, smRun smInit l = .ok (c, t) ∧ smStep c e = .ok (c', o, rc) ∧
      .told true ∈ o.filterMap (cnfMark 1 5) ∧ stOf c' 1 5 = some .inactive := by
  refine ⟨[.actReq ⟨1, 5, 3, ⟨0x21, none, none⟩, [], [], [], 7, 8⟩], _, _, .unitdataInd 0 [0x8a, 0x43, 0], _, _, _,
    rfl, rfl, ?_, ?_⟩ <;> decide +kernel

/-- Events after which a procedure that is running ends without an answer. -/
def Ends : SmIn → Prop
  | .estRej _ => True
  | .relInd _ => True
  | .snsmDeactRsp _ _ => True
  | _ => False

/-- None of these events occurs while the procedure of the context runs. -/
def Undisturbed (id n : Nat) : SmCtx → List SmIn → Prop
  | _, [] => True
  | c, e :: l => (Ends e → stOf c id n ≠ some .pending) ∧
      ∀ c' o rc, smStep c e = .ok (c', o, rc) → Undisturbed id n c' l

/-- What one step means for the user of the context of `id` and `n`. -/
theorem step_marks {c c' : SmCtx} (hi : SmInv c) {e : SmIn} {o : List SmOut} {rc : Option Errno}
    (h : smStep c e = .ok (c', o, rc)) (id n : Nat) :
    (reqMark id n ⟨e, o, rc⟩ ++ o.filterMap (cnfMark id n) = [] ∧
      (stOf c' id n = some .pending → stOf c id n = some .pending) ∧
      (stOf c id n = some .pending → stOf c' id n ≠ some .pending → Ends e)) ∨
    (reqMark id n ⟨e, o, rc⟩ ++ o.filterMap (cnfMark id n) = [.asked] ∧ stOf c id n = none ∧
      stOf c' id n = some .pending) ∨
    (∃ acc, reqMark id n ⟨e, o, rc⟩ ++ o.filterMap (cnfMark id n) = [.told acc] ∧
      stOf c id n = some .pending ∧ stOf c' id n ≠ some .pending ∧ stOf c' id n ≠ none) := by
  obtain ⟨_, hch, _⟩ := step_change hi h
  have hsn := hi.slot
  rcases hch with ⟨hs, hr, ho⟩ | ⟨a, b, s', ht, hs⟩
  · left
    have hst : stOf c' id n = stOf c id n := by unfold stOf; rw [hs]
    refine ⟨?_, by rw [hst]; exact fun h => h, by rw [hst]; exact fun h h' => absurd h h'⟩
    have h1 : reqMark id n ⟨e, o, rc⟩ = [] := by
      unfold reqMark
      cases e with
      | actReq r =>
        have := hr r rfl
        simp [this]
      | _ => rfl
    have h2 : o.filterMap (cnfMark id n) = [] := by
      rw [List.filterMap_eq_nil_iff]
      intro x hx
      obtain ⟨t, k, rfl⟩ := ho x hx
      rfl
    rw [h1, h2]; rfl
  · by_cases hab : id = a ∧ n = b
    · obtain ⟨rfl, rfl⟩ := hab
      have hst' : stOf c' id n = s'.map Sme.st := by unfold stOf; rw [hs, if_pos ⟨rfl, rfl⟩]
      have hst : stOf c id n = (c.slot id n).map Sme.st := rfl
      rw [hst', hst]
      generalize hold : c.slot id n = old at ht
      cases ht with
      | start r m s h1 h2 h3 h4 h5 h6 h7 h8 h9 =>
        right; left
        refine ⟨?_, rfl, by simp [h3]⟩
        simp [reqMark, h1, h2, establishOut, cnfMark]
      | keep ev x y o rc hk hne hq ho =>
        left
        refine ⟨?_, ?_, ?_⟩
        · have h1 : reqMark id n ⟨e, o, rc⟩ = [] := by
            unfold reqMark
            cases e with
            | actReq r => exact absurd rfl (hne r)
            | _ => rfl
          have h2 : o.filterMap (cnfMark id n) = [] := by
            rw [List.filterMap_eq_nil_iff]
            intro z hz
            rcases ho z hz with ⟨_, _, rfl⟩ | ⟨_, _, _, _, _, rfl⟩ | ⟨_, rfl⟩ <;> rfl
          rw [h1, h2]; rfl
        · simp [hk.st]
        · simp only [Option.map_some, hk.st]; exact fun h h' => absurd h h'
      | drop ev x o hst ho =>
        left
        refine ⟨?_, by simp [toInactive], ?_⟩
        · rcases ho with ⟨⟨_, rfl⟩, rfl⟩ | ⟨⟨_, rfl⟩, rfl⟩ | ⟨⟨_, _, rfl⟩, _, rfl⟩ <;> rfl
        · intro _ _
          rcases ho with ⟨⟨_, rfl⟩, rfl⟩ | ⟨⟨_, rfl⟩, rfl⟩ | ⟨⟨_, _, rfl⟩, _, rfl⟩ <;> trivial
      | activated t k x hst =>
        right; right
        exact ⟨true, by simp [reqMark, cnfMark], by simp [hst], by simp [toActive], by simp⟩
      | rejected k p x y z cause hst hk hq hb hx =>
        right; right
        have hn := (hsn id n x hold).1
        obtain ⟨_, ⟨_, rfl⟩ | ⟨_, rfl⟩⟩ := actCnf_ok hx
        · exact ⟨true, by simp [reqMark, cnfMark, hk.nsapi, hn], by simp [hst], by simp [toInactive], by simp⟩
        · exact ⟨false, by simp [reqMark, cnfMark, hk.nsapi, hn], by simp [hst], by simp [toInactive], by simp⟩
      | gaveUp x hst h4 =>
        right; right
        exact ⟨false, by simp [reqMark, cnfMark], by simp [hst], by simp [toInactive], by simp⟩
      | retry m x hst h4 =>
        left
        refine ⟨by simp [reqMark, cnfMark, establishOut], by simp [hst], by simp⟩
      | freed x hf =>
        left
        have hin := ((hsn id n x hold).2.2.2.2.2.2.2.1).mp hf
        refine ⟨by simp [reqMark], by simp, by simp [hin]⟩
    · left
      have hst : stOf c' id n = stOf c id n := by unfold stOf; rw [hs, if_neg hab]
      refine ⟨?_, by rw [hst]; exact fun h => h, by rw [hst]; exact fun h h' => absurd h h'⟩
      have hab' : ¬ (a = id ∧ b = n) := fun h => hab ⟨h.1.symm, h.2.symm⟩
      generalize hold : c.slot a b = old at ht
      cases ht with
      | start r m s h1 h2 h3 h4 h5 h6 h7 h8 h9 =>
        subst h1; subst h2
        simp only [reqMark, establishOut, cnfMark, List.filterMap_cons, List.filterMap_nil, List.append_nil]
        rw [if_neg (fun h => hab' ⟨h.1, h.2.1⟩)]
      | keep ev x y o rc hk hne hq ho =>
        have h1 : reqMark id n ⟨e, o, rc⟩ = [] := by
          unfold reqMark
          cases e with
          | actReq r => exact absurd rfl (hne r)
          | _ => rfl
        have h2 : o.filterMap (cnfMark id n) = [] := by
          rw [List.filterMap_eq_nil_iff]
          intro z hz
          rcases ho z hz with ⟨_, _, rfl⟩ | ⟨_, _, _, _, _, rfl⟩ | ⟨_, rfl⟩ <;> rfl
        rw [h1, h2]; rfl
      | drop ev x o hst ho =>
        rcases ho with ⟨⟨_, rfl⟩, rfl⟩ | ⟨⟨_, rfl⟩, rfl⟩ | ⟨⟨_, _, rfl⟩, _, rfl⟩ <;> rfl
      | activated t k x hst => simp [reqMark, cnfMark, hab']
      | rejected k p x y z cause hst hk hq hb hx =>
        have hn := (hsn a b x hold).1
        obtain ⟨_, ⟨_, rfl⟩ | ⟨_, rfl⟩⟩ := actCnf_ok hx
        · simp [reqMark, cnfMark, hk.nsapi, hn, hab']
        · simp [reqMark, cnfMark, hk.nsapi, hn, hab']
      | gaveUp x hst h4 => simp [reqMark, cnfMark, hab']
      | retry m x hst h4 => simp [reqMark, cnfMark, establishOut]
      | freed x hf => simp [reqMark]

theorem noSurplus_mono {l : List Mark} (h : NoSurplus false l) : NoSurplus true l := by
  cases l with
  | nil => trivial
  | cons m l =>
    cases m with
    | asked => exact h
    | told b => exact absurd h.1 (by decide)

theorem run_noSurplus {c c' : SmCtx} (hi : SmInv c) {l : List SmIn} {t : List SmObs}
    (h : smRun c l = .ok (c', t)) (id n : Nat) :
    NoSurplus (decide (stOf c id n = some .pending)) (marks id n t) := by
  induction l generalizing c t with
  | nil => simp [smRun] at h; obtain ⟨_, rfl⟩ := h; trivial
  | cons e l ih =>
    obtain ⟨c1, o, rc, t', h1, h2, rfl⟩ := run_cons h
    have h3 := ih (step_inv hi h1) h2
    show NoSurplus _ (reqMark id n ⟨e, o, rc⟩ ++ o.filterMap (cnfMark id n) ++ marks id n t')
    rcases step_marks hi h1 id n with ⟨hm, hp, _⟩ | ⟨hm, _, hp⟩ | ⟨acc, hm, hp, hp', _⟩
    · rw [hm, List.nil_append]
      by_cases hc : stOf c1 id n = some .pending
      · rw [decide_eq_true hc] at h3
        rw [decide_eq_true (hp hc)]; exact h3
      · rw [decide_eq_false hc] at h3
        by_cases hd : stOf c id n = some .pending
        · rw [decide_eq_true hd]; exact noSurplus_mono h3
        · rw [decide_eq_false hd]; exact h3
    · rw [hm]
      rw [decide_eq_true hp] at h3
      cases decide (stOf c id n = some .pending) <;> exact h3
    · rw [hm]
      rw [decide_eq_false hp'] at h3
      rw [decide_eq_true hp]
      exact ⟨rfl, h3⟩

theorem run_owed {c c' : SmCtx} (hi : SmInv c) {l : List SmIn} {t : List SmObs} (id n : Nat)
    (h : smRun c l = .ok (c', t)) (hu : Undisturbed id n c l) :
    owed (decide (stOf c id n = some .pending)) (marks id n t) =
      some (decide (stOf c' id n = some .pending)) := by
  induction l generalizing c t with
  | nil => simp [smRun] at h; obtain ⟨rfl, rfl⟩ := h; simp [marks, owed]
  | cons e l ih =>
    obtain ⟨c1, o, rc, t', h1, h2, rfl⟩ := run_cons h
    have h3 := ih (step_inv hi h1) h2 (hu.2 _ _ _ h1)
    show owed _ (reqMark id n ⟨e, o, rc⟩ ++ o.filterMap (cnfMark id n) ++ marks id n t') = _
    rcases step_marks hi h1 id n with ⟨hm, hp, hpe⟩ | ⟨hm, hc, hp⟩ | ⟨acc, hm, hp, hp', _⟩
    · rw [hm, List.nil_append, ← h3]
      congr 1
      by_cases hc : stOf c1 id n = some .pending
      · rw [decide_eq_true hc, decide_eq_true (hp hc)]
      · rw [decide_eq_false hc, decide_eq_false]
        intro hd
        exact hu.1 (hpe hd hc) hd
    · rw [hm, decide_eq_false (by rw [hc]; decide)]
      rw [decide_eq_true hp] at h3
      exact h3
    · rw [hm, decide_eq_true hp]
      rw [decide_eq_false hp'] at h3
      exact h3

/-- What holds in every history: no confirmation without a request, and never two; "rejected" only for a
context that is not active, and "accepted" only for an active one unless a REJECT with cause 0 was
received.  If no refusal by GMM, no release and no deactivation answer meets the procedure while it runs,
every request is answered exactly once and an answer is owed exactly as long as the procedure runs. -/
theorem c50_partial (l : List SmIn) (c : SmCtx) (t : List SmObs) (h : smRun smInit l = .ok (c, t))
    (id n : Nat) :
    NoSurplus false (marks id n t) ∧
    (Undisturbed id n smInit l →
      ∃ w, owed false (marks id n t) = some w ∧ (w = true ↔ stOf c id n = some .pending)) ∧
    (∀ e c' o rc, smStep c e = .ok (c', o, rc) →
      (.told false ∈ o.filterMap (cnfMark id n) → stOf c' id n = some .inactive) ∧
      (.told true ∈ o.filterMap (cnfMark id n) → stOf c' id n = some .active ∨
        ∃ sess b s s', e = .unitdataInd sess b ∧ c.slot id n = some s ∧ rxRejBody s b = (s', .ok 0))) := by
  have h0 : decide (stOf smInit id n = some .pending) = false := by
    simp [stOf, SmCtx.slot, smInit, freshMs]
  refine ⟨?_, ?_, ?_⟩
  · have := run_noSurplus smInit_inv h id n
    rwa [h0] at this
  · intro hu
    have := run_owed smInit_inv id n h hu
    rw [h0] at this
    exact ⟨_, this, by simp⟩
  · intro e c' o rc hs
    have hi := run_inv smInit_inv h
    obtain ⟨_, hch, _⟩ := step_change hi hs
    rcases hch with ⟨_, _, ho⟩ | ⟨a, b, s', ht, hsl⟩
    · have h2 : o.filterMap (cnfMark id n) = [] := by
        rw [List.filterMap_eq_nil_iff]
        intro x hx
        obtain ⟨t, k, rfl⟩ := ho x hx
        rfl
      rw [h2]; simp
    · generalize hold : c.slot a b = old at ht
      cases ht with
      | start r m s h1 h2 h3 h4 h5 h6 h7 h8 h9 => simp [establishOut, cnfMark]
      | keep ev x y o rc hk hne hq ho =>
        have h2 : o.filterMap (cnfMark id n) = [] := by
          rw [List.filterMap_eq_nil_iff]
          intro z hz
          rcases ho z hz with ⟨_, _, rfl⟩ | ⟨_, _, _, _, _, rfl⟩ | ⟨_, rfl⟩ <;> rfl
        rw [h2]; simp
      | drop ev x o hst ho =>
        rcases ho with ⟨⟨_, rfl⟩, rfl⟩ | ⟨⟨_, rfl⟩, rfl⟩ | ⟨⟨_, _, rfl⟩, _, rfl⟩ <;> simp [cnfMark]
      | activated t k x hst =>
        by_cases hab : a = id ∧ b = n
        · obtain ⟨rfl, rfl⟩ := hab
          simp [cnfMark, stOf, hsl, toActive]
        · simp [cnfMark, hab]
      | rejected k p x y z cause hst hk hq hb hx =>
        have hn := (hi.slot a b x hold).1
        by_cases hab : a = id ∧ b = n
        · obtain ⟨rfl, rfl⟩ := hab
          obtain ⟨_, ⟨rfl, rfl⟩ | ⟨_, rfl⟩⟩ := actCnf_ok hx
          · refine ⟨by simp [cnfMark, hk.nsapi, hn], fun _ => Or.inr ⟨k, p, x, y, rfl, hold, hb⟩⟩
          · simp [cnfMark, stOf, hsl, toInactive, hk.nsapi, hn]
        · obtain ⟨_, ⟨_, rfl⟩ | ⟨_, rfl⟩⟩ := actCnf_ok hx
          · simp [cnfMark, hk.nsapi, hn, hab]
          · simp [cnfMark, hk.nsapi, hn, hab]
      | gaveUp x hst h4 =>
        by_cases hab : a = id ∧ b = n
        · obtain ⟨rfl, rfl⟩ := hab
          simp [cnfMark, stOf, hsl, toInactive]
        · simp [cnfMark, hab]
      | retry m x hst h4 => simp [cnfMark, establishOut]
      | freed x hf => simp

/-- A whole successful activation. -/
def c50Good : List SmIn :=
  [.actReq ⟨1, 5, 3, ⟨0x21, none, none⟩, [9, 9, 9], [], [], 7, 8⟩, .estAcc 0 7 8 0xc0000001,
   .unitdataInd 0 [0x8a, 0x42, 3, 3, 1, 2, 3, 4], .snsmActRsp 0xc0000001 5]

example : ∃ c t, smRun smInit c50Good = .ok (c, t) ∧ marks 1 5 t = [.asked, .told true] ∧
    stOf c 1 5 = some .active := by
  refine ⟨_, _, rfl, ?_, ?_⟩ <;> decide +kernel

/-! ## C51 -/

/-- The attempts of one activation as GMM sees them. -/
def tryMark (id n : Nat) (ob : SmObs) : List Try :=
  ob.outs.filterMap fun o =>
    match o with
    | .establishReq .. =>
      match ob.ev with
      | .actReq r => if r.msId = id ∧ r.nsapi = n then some .first else none
      | .timeout a b => if a = id ∧ b = n then some .again else none
      | _ => some .again
    | _ => none

/-- All attempts for the context. -/
def tries (id n : Nat) : List SmObs → List Try
  | [] => []
  | ob :: t => tryMark id n ob ++ tries id n t

/-- The attempts counted in the context: the first and one for each expiry. -/
def usedBy : Option Sme → Nat
  | some s => s.attempts + 1
  | none => 0

@[inherit_doc usedBy]
def used (c : SmCtx) (id n : Nat) : Nat := usedBy (c.slot id n)

theorem step_tries {c c' : SmCtx} (hi : SmInv c) {e : SmIn} {o : List SmOut} {rc : Option Errno}
    (h : smStep c e = .ok (c', o, rc)) (id n : Nat) :
    (tryMark id n ⟨e, o, rc⟩ = [] ∧ (stOf c' id n = some .pending → used c' id n = used c id n ∧
      stOf c id n = some .pending)) ∨
    (tryMark id n ⟨e, o, rc⟩ = [.first] ∧ stOf c id n = none ∧ used c' id n = 1) ∨
    (tryMark id n ⟨e, o, rc⟩ = [.again] ∧ stOf c id n = some .pending ∧ used c id n < 4 ∧
      used c' id n = used c id n + 1) := by
  obtain ⟨_, hch, _⟩ := step_change hi h
  rcases hch with ⟨hs, hr, ho⟩ | ⟨a, b, s', ht, hs⟩
  · left
    refine ⟨?_, ?_⟩
    · unfold tryMark
      rw [List.filterMap_eq_nil_iff]
      intro x hx
      obtain ⟨t, k, rfl⟩ := ho x hx
      rfl
    · unfold used stOf; rw [hs]; exact fun h => ⟨rfl, h⟩
  · by_cases hab : id = a ∧ n = b
    · obtain ⟨rfl, rfl⟩ := hab
      have hsl : c'.slot id n = s' := by rw [hs, if_pos ⟨rfl, rfl⟩]
      have hu' : used c' id n = usedBy s' := by
        unfold used; rw [hsl]
      have hst' : stOf c' id n = s'.map Sme.st := by unfold stOf; rw [hsl]
      rw [hu', hst']
      generalize hold : c.slot id n = old at ht
      have hsto : stOf c id n = old.map Sme.st := by unfold stOf; rw [hold]
      have hu : used c id n = usedBy old := by
        unfold used; rw [hold]
      rw [hsto, hu]
      clear hsto hu hst' hu' hsl
      cases ht with
      | start r m s h1 h2 h3 h4 h5 h6 h7 h8 h9 =>
        right; left
        simp [tryMark, establishOut, h1, h2, h5, usedBy]
      | keep ev x y o rc hk hne hq ho =>
        left
        refine ⟨?_, ?_⟩
        · unfold tryMark
          rw [List.filterMap_eq_nil_iff]
          intro z hz
          rcases ho z hz with ⟨_, _, rfl⟩ | ⟨_, _, _, _, _, rfl⟩ | ⟨_, rfl⟩ <;> rfl
        · simp [hk.attempts, hk.st, usedBy]
      | drop ev x o hst ho =>
        left
        refine ⟨?_, by simp [toInactive]⟩
        rcases ho with ⟨⟨_, rfl⟩, rfl⟩ | ⟨⟨_, rfl⟩, rfl⟩ | ⟨⟨_, _, rfl⟩, _, rfl⟩ <;> rfl
      | activated t k x hst => left; exact ⟨by simp [tryMark], by simp [toActive]⟩
      | rejected k p x y z cause hst hk hq hb hx =>
        left
        obtain ⟨_, ⟨_, rfl⟩ | ⟨_, rfl⟩⟩ := actCnf_ok hx
        · exact ⟨by simp [tryMark], by simp [toInactive]⟩
        · exact ⟨by simp [tryMark], by simp [toInactive]⟩
      | gaveUp x hst h4 => left; exact ⟨by simp [tryMark], by simp [toInactive]⟩
      | retry m x hst h4 =>
        right; right
        have h9 := (hi.slot id n x hold).2.2.2.2.2.2.2.2 hst
        refine ⟨by simp [tryMark, establishOut], by simp [hst], ?_, ?_⟩
        · simp only [usedBy]; omega
        · simp only [usedBy]; omega
      | freed x hf => left; exact ⟨by simp [tryMark], by simp⟩
    · have hsl : c'.slot id n = c.slot id n := by rw [hs, if_neg hab]
      have hab' : ¬ (a = id ∧ b = n) := fun h => hab ⟨h.1.symm, h.2.symm⟩
      left
      refine ⟨?_, by unfold used stOf; rw [hsl]; exact fun h => ⟨rfl, h⟩⟩
      generalize hold : c.slot a b = old at ht
      cases ht with
      | start r m s h1 h2 h3 h4 h5 h6 h7 h8 h9 =>
        subst h1; subst h2
        simp [tryMark, establishOut, hab']
      | keep ev x y o rc hk hne hq ho =>
        unfold tryMark
        rw [List.filterMap_eq_nil_iff]
        intro z hz
        rcases ho z hz with ⟨_, _, rfl⟩ | ⟨_, _, _, _, _, rfl⟩ | ⟨_, rfl⟩ <;> rfl
      | drop ev x o hst ho =>
        rcases ho with ⟨⟨_, rfl⟩, rfl⟩ | ⟨⟨_, rfl⟩, rfl⟩ | ⟨⟨_, _, rfl⟩, _, rfl⟩ <;> rfl
      | activated t k x hst => simp [tryMark]
      | rejected k p x y z cause hst hk hq hb hx =>
        obtain ⟨_, ⟨_, rfl⟩ | ⟨_, rfl⟩⟩ := actCnf_ok hx <;> simp [tryMark]
      | gaveUp x hst h4 => simp [tryMark]
      | retry m x hst h4 => simp [tryMark, establishOut, hab']
      | freed x hf => simp [tryMark]

theorem tries_none {c c' : SmCtx} {l : List SmIn} {t : List SmObs} (hi : SmInv c)
    (h : smRun c l = .ok (c', t)) (id n : Nat) :
    ∀ k, (stOf c id n = some .pending → k = used c id n) → TriesAtMost 4 k (tries id n t) := by
  induction l generalizing c t with
  | nil => intro k _; simp [smRun] at h; obtain ⟨_, rfl⟩ := h; trivial
  | cons e l ih =>
    intro k hk
    obtain ⟨c1, o, rc, t', h1, h2, rfl⟩ := run_cons h
    have ih' := ih (step_inv hi h1) h2
    show TriesAtMost 4 k (tryMark id n ⟨e, o, rc⟩ ++ tries id n t')
    rcases step_tries hi h1 id n with ⟨hm, hp⟩ | ⟨hm, _, hp⟩ | ⟨hm, hp, hlt, hu⟩
    · rw [hm, List.nil_append]
      refine ih' k (fun hc => ?_)
      obtain ⟨he, hc'⟩ := hp hc
      rw [he]; exact hk hc'
    · rw [hm]
      exact ih' 1 (fun _ => hp.symm)
    · rw [hm]
      have := hk hp
      subst this
      exact ⟨hlt, ih' _ (fun _ => hu.symm)⟩

/-- C51: in every history, each activation makes at most four attempts, one at the start and one after
each of the first three expiries of T3380; the next expiry ends it with a confirmation that says
"rejected"; and a procedure whose timer expires four times does not run any more. -/
theorem c51_bounded (l : List SmIn) (c : SmCtx) (t : List SmObs) (h : smRun smInit l = .ok (c, t))
    (id n : Nat) : TriesAtMost 4 0 (tries id n t) :=
  tries_none smInit_inv h id n 0 (by simp [stOf, SmCtx.slot, smInit, freshMs])

/-- The expiry of T3380 in a running procedure: a further attempt, or the end of the procedure with a
confirmation that says "rejected". -/
theorem c51_expiry (l : List SmIn) (c : SmCtx) (t : List SmObs) (h : smRun smInit l = .ok (c, t))
    (id n : Nat) (hp : stOf c id n = some .pending) (c' : SmCtx) (o : List SmOut) (rc : Option Errno)
    (hs : smStep c (.timeout id n) = .ok (c', o, rc)) :
    (stOf c' id n = some .pending ∧ used c' id n = used c id n + 1 ∧ used c' id n ≤ 4 ∧
      ∃ sess p g w, o = [.establishReq sess p g w]) ∨
    (used c id n = 4 ∧ stOf c' id n = some .inactive ∧ ∃ pco, o = [.actRej id n pco causeTempOoo]) := by
  have hi := run_inv smInit_inv h
  obtain ⟨s, hsl, hst⟩ : ∃ s, c.slot id n = some s ∧ s.st = .pending := by
    unfold stOf at hp
    cases hh : c.slot id n with
    | none => rw [hh] at hp; cases hp
    | some s => rw [hh] at hp; exact ⟨s, rfl, by simpa using hp⟩
  obtain ⟨hn, h16, hm, _, _, _, htm, _, hat⟩ := hi.slot id n s hsl
  have hat := hat hst
  have htm := htm.mpr hst
  have hms : c.hasMs id = true := by simpa [SmCtx.hasMs] using hm
  have hsl' : (c.ms id).pdp n = some s := hsl
  have hu : used c id n = s.attempts + 1 := by unfold used; rw [hsl]; rfl
  have hs' : smTimeout c id n s = .ok (c', o, rc) := by
    have : smStep c (.timeout id n) = smTimeout c id n s := by
      show (if c.hasMs id then _ else _) = _
      rw [if_pos hms, hsl']
    rw [← this]; exact hs
  unfold smTimeout at hs'
  rw [htm] at hs'
  dsimp only at hs'
  rw [if_neg (by rw [hst]; simp)] at hs'
  split at hs'
  · rename_i h4
    right
    rcases dispatch_ok hs' with ⟨s', o', hf, rfl, rfl, rfl⟩ | ⟨hf, _⟩
    · rcases smFsm_some hf with ⟨h1, _⟩ | ⟨_, _, ⟨h1, _⟩ | ⟨h1, _⟩⟩ | ⟨⟨h1, _⟩ | ⟨h1, _⟩, _⟩ |
        ⟨k, x, h1, h2, rfl, hx, rfl⟩ | ⟨_, h1, _⟩ <;> try (cases h1)
      obtain ⟨_, ⟨h, _⟩ | ⟨_, rfl⟩⟩ := actCnf_ok hx
      · exact absurd h (by decide)
      · refine ⟨by omega, ?_, s.pco, ?_⟩
        · unfold stOf; rw [slot_put, if_pos ⟨rfl, rfl⟩]; simp [toInactive]
        · show [SmOut.actRej id s.nsapi s.pco causeTempOoo] = _
          rw [hn]
    · simp [smFsm, hst, withCnf] at hf
      split at hf <;> cases hf
  · rename_i h4
    left
    cases hs'
    refine ⟨?_, ?_, ?_, _, _, _, _, rfl⟩
    · unfold stOf; rw [slot_put, if_pos ⟨rfl, rfl⟩]; simp [toPending]
    · unfold used; rw [slot_put, if_pos ⟨rfl, rfl⟩, hsl]; simp [toPending, usedBy]; omega
    · unfold used; rw [slot_put, if_pos ⟨rfl, rfl⟩]; simp [toPending, usedBy]; omega

/-- Expiries of the timer of the context. -/
def expiries (id n : Nat) (l : List SmIn) : Nat := l.countP (fun e => e = .timeout id n)

/-- A procedure whose timer expires as often as attempts are left has ended at some point on the way. -/
theorem ends_after {l0 l : List SmIn} {c c' : SmCtx} {t0 t : List SmObs} (h0 : smRun smInit l0 = .ok (c, t0))
    (id n : Nat) (h : smRun c l = .ok (c', t)) (he : 5 ≤ expiries id n l + used c id n)
    (hp : stOf c id n = some .pending) :
    ∃ l1 l2 c1 t1, l = l1 ++ l2 ∧ smRun c l1 = .ok (c1, t1) ∧ stOf c1 id n ≠ some .pending := by
  induction l generalizing c t l0 t0 with
  | nil =>
    exfalso
    have hi := run_inv smInit_inv h0
    unfold stOf at hp
    cases hh : c.slot id n with
    | none => rw [hh] at hp; cases hp
    | some s =>
      rw [hh] at hp
      have := (hi.slot id n s hh).2.2.2.2.2.2.2.2 (by simpa using hp)
      simp [expiries, used, usedBy, hh] at he
      omega
  | cons e l ih =>
    obtain ⟨c1, o, rc, t', h1, h2, rfl⟩ := run_cons h
    have hrun1 : smRun c [e] = .ok (c1, [⟨e, o, rc⟩]) := by
      simp [smRun, h1]
    by_cases hp1 : stOf c1 id n = some .pending
    · have happ : ∀ (l0 : List SmIn) (a : SmCtx) (t0 : List SmObs), smRun a l0 = .ok (c, t0) →
          smRun a (l0 ++ [e]) = .ok (c1, t0 ++ [⟨e, o, rc⟩]) := by
        intro l0
        induction l0 with
        | nil => intro a t0 ha; simp [smRun] at ha; obtain ⟨rfl, rfl⟩ := ha; simpa using hrun1
        | cons x l0 ih0 =>
          intro a t0 ha
          obtain ⟨a1, o', rc', t1, g1, g2, rfl⟩ := run_cons ha
          have := ih0 a1 t1 g2
          simp only [List.cons_append, smRun, g1, this]
      have hu1 : 5 ≤ expiries id n l + used c1 id n := by
        by_cases hee : e = .timeout id n
        · subst hee
          have hx : expiries id n (SmIn.timeout id n :: l) = expiries id n l + 1 := by
            simp [expiries]
          rcases c51_expiry l0 c t0 h0 id n hp c1 o rc h1 with ⟨_, hu, _⟩ | ⟨_, hne, _⟩
          · omega
          · rw [hne] at hp1; exact absurd hp1 (by decide)
        · have hx : expiries id n (e :: l) = expiries id n l := by
            simp [expiries, hee]
          rcases step_tries (run_inv smInit_inv h0) h1 id n with ⟨_, hk⟩ | ⟨_, hf, _⟩ | ⟨_, _, _, hu⟩
          · rw [(hk hp1).1, ← hx]; exact he
          · rw [hf] at hp; cases hp
          · omega
      obtain ⟨l1, l2, c2, t1, rfl, hr, hne⟩ := ih (happ l0 smInit t0 h0) h2 hu1 hp1
      refine ⟨e :: l1, l2, c2, ⟨e, o, rc⟩ :: t1, rfl, ?_, hne⟩
      simp only [smRun, h1, hr]
    · exact ⟨[e], l, c1, _, rfl, hrun1, hp1⟩

theorem c51_ends (l0 l : List SmIn) (c c' : SmCtx) (t0 t : List SmObs)
    (h0 : smRun smInit l0 = .ok (c, t0)) (id n : Nat) (h : smRun c l = .ok (c', t))
    (hp : stOf c id n = some .pending) (he : 4 ≤ expiries id n l) :
    ∃ l1 l2 c1 t1, l = l1 ++ l2 ∧ smRun c l1 = .ok (c1, t1) ∧ stOf c1 id n ≠ some .pending := by
  refine ends_after h0 id n h ?_ hp
  have : 1 ≤ used c id n := by
    unfold stOf at hp
    unfold used
    cases hh : c.slot id n with
    | none => rw [hh] at hp; cases hp
    | some s => simp [usedBy]
  omega

example : ∃ c t, smRun smInit [.actReq ⟨1, 5, 3, ⟨0x21, none, none⟩, [], [], [], 7, 8⟩, .timeout 1 5, .timeout 1 5,
      .timeout 1 5, .timeout 1 5] = .ok (c, t) ∧ marks 1 5 t = [.asked, .told false] ∧
    tries 1 5 t = [.first, .again, .again, .again] ∧ stOf c 1 5 = some .inactive := by
  refine ⟨_, _, rfl, ?_, ?_, ?_⟩ <;> decide +kernel

end Verif.Props
