import Verif.Props.GmmUnknownIe
/-!
# C198: a mobile station the network has turned away does not come back at once
-/
namespace Verif.Props
open Verif Verif.Gmm Verif.Gsm

/-! ## Specification -/

/-- ATTACH REJECT (3GPP TS 24.008, 9.4.4): the cause, and T3346 (identifier 3A) or T3302 (2A) if there is one. -/
def rejectMsg (cause : UInt8) (timer : Option (UInt8 × Octets)) : Octets :=
  [0x08, 0x04, cause] ++ match timer with
    | none => []
    | some (tag, v) => tlvElement tag v

/-- The causes after which the mobile station has to regard the SIM as invalid for GPRS (4.7.3.1.4): illegal MS,
illegal ME, GPRS services not allowed, GPRS and other services not allowed. -/
def Forbids (cause : UInt8) : Prop := cause ∈ [3, 6, 7, 8]

/-- T3346 of this value is neither zero nor deactivated (10.5.7.4): the mobile station has to wait that long. -/
def BacksOff (v : UInt8) : Prop := v.toNat % 32 ≠ 0 ∧ v.toNat / 32 ≠ 7

/-- ATTACH REQUEST is sent. -/
def Asks (out : List GmmOut) : Prop := ∃ tlli m, GmmOut.llUnitdata tlli (0x08 :: 0x01 :: m) ∈ out

/-- **C198**, full statement.  A mobile station that was rejected for good, or for a time, does not ask the network
to be attached when it is asked to right after that. -/
def C198Statement : Prop :=
  ∀ cfg g t, GmmReach cfg g t → g.st = .regInit → ∀ ok ok' cause timer prm r r',
    ((Forbids cause ∧ timer = none) ∨ ∃ v, timer = some (0x3a, [v]) ∧ BacksOff v) →
    gmmStep cfg ok g (.rx (rejectMsg cause timer)) = .ok r → gmmStep cfg ok' r.g (.attachReq prm) = .ok r' → ¬ Asks r'.out

/-! ## What the message does -/

theorem rejectMsg_step (cfg : GmmCfg) (ok : GmmOut → Bool) (g : Gmme) (cause : UInt8) (timer : Option (UInt8 × Octets))
    (ht : ∀ tag v, timer = some (tag, v) → (tag = 0x2a ∨ tag = 0x3a) ∧ v.length < 256) :
    gmmStep cfg ok g (.rx (rejectMsg cause timer)) = .ok (dispatch cfg ok g [] (.attachRejected cause.toNat)) := by
  cases timer with
  | none => rfl
  | some p =>
    obtain ⟨tag, v⟩ := p
    obtain ⟨h1, h2⟩ := ht tag v rfl
    have e1 : gmmStep cfg ok g (.rx (rejectMsg cause (some (tag, v)))) = rxAttRej cfg ok g ([0x08, 0x04, cause] ++ tlvElement tag v) := rfl
    have hl : ([0x08, 0x04, cause] ++ tlvElement tag v).length = v.length + 5 := by simp [tlvElement]
    have h3 : ieParse gmmIes ([0x08, 0x04, cause] ++ tlvElement tag v) 3 = .ok _ :=
      (ieParse_tlv (d := gmmIes) (b := [0x08, 0x04, cause]) (pos := 3) (l := []) rfl (Nat.le_refl _) h2
        (by rcases h1 with rfl | rfl <;> decide)).1 (by rcases h1 with rfl | rfl <;> decide)
    have h4 : rd ([0x08, 0x04, cause] ++ tlvElement tag v) 2 = .ok cause.toNat := rfl
    rw [e1]
    unfold rxAttRej
    rw [if_neg (by omega), h4]
    simp only [Res.bind_ok]
    rw [if_pos (by omega), h3]

theorem dispatch_rejected {cfg : GmmCfg} {ok : GmmOut → Bool} {g : Gmme} {c : Nat} (h : g.st = .regInit) :
    dispatch cfg ok g [] (.attachRejected c) = ⟨(attachFailed ok g c).1, (attachFailed ok g c).2, none⟩ := by
  unfold dispatch gmmFsm
  rw [h]
  rfl

/-- **C198 holds of no rejected mobile station**: asked to attach with its P-TMSI right after ATTACH REJECT, whatever
the cause and T3346, it asks the network again. -/
theorem c198_never (cfg : GmmCfg) (g : Gmme) (hst : g.st = .regInit) (ok ok' : GmmOut → Bool) (cause : UInt8)
    (timer : Option (UInt8 × Octets)) (ht : ∀ tag v, timer = some (tag, v) → (tag = 0x2a ∨ tag = 0x3a) ∧ v.length < 256)
    (prm : AttachPrm) (hp : prm.withImsi = false) :
    ∃ r r', gmmStep cfg ok g (.rx (rejectMsg cause timer)) = .ok r ∧ gmmStep cfg ok' r.g (.attachReq prm) = .ok r' ∧
      Asks r'.out := by
  rw [rejectMsg_step cfg ok g cause timer ht, dispatch_rejected hst]
  refine ⟨_, _, rfl, rfl, ?_⟩
  show Asks (attachReqAct cfg ok' (attachFailed ok g cause.toNat).1 prm).out
  generalize hg : (attachFailed ok g cause.toNat).1 = g1
  have h1 : g1.st = .dereg := by rw [← hg]; rfl
  unfold attachReqAct requestAttach dispatch gmmFsm storeIdentities
  rw [h1, hp]
  exact ⟨_, _, List.mem_singleton.2 rfl⟩

/-- What has happened before: the mobile station has asked to be attached. -/
theorem attaching_reach : ∃ t, GmmReach defaultCfg
    (runEnd (gmmRun defaultCfg (gmmeAlloc true 0xc0000001 [0, 0, 1, 0, 1] 7) attaching)).1 t :=
  ⟨_, _, _, _, _, _, runEnd_ok (r := gmmRun defaultCfg (gmmeAlloc true 0xc0000001 [0, 0, 1, 0, 1] 7) attaching) (by decide +kernel)⟩

theorem attaching_st : (runEnd (gmmRun defaultCfg (gmmeAlloc true 0xc0000001 [0, 0, 1, 0, 1] 7) attaching)).1.st = .regInit := by
  decide +kernel

/-- **C198 is violated** by a mobile station that is told it is illegal. -/
theorem c198_violated : ¬ C198Statement := by
  intro h
  obtain ⟨t, ht⟩ := attaching_reach
  obtain ⟨r, r', h1, h2, h3⟩ := c198_never defaultCfg _ attaching_st (fun _ => true) (fun _ => true) 3 none
    (fun _ _ x => by cases x) ⟨1, false, 1, [], [], [0x62, 0xf2, 0x20, 0, 1, 0]⟩ rfl
  exact h _ _ t ht attaching_st _ _ 3 none _ r r' (.inl ⟨by unfold Forbids; decide, rfl⟩) h1 h2 h3

/-- ... and by one that is told to wait ten minutes because of congestion. -/
theorem c198_violated_wait : ∃ cfg g t v r r' prm, GmmReach cfg g t ∧ g.st = .regInit ∧ BacksOff v ∧
    gmmStep cfg (fun _ => true) g (.rx (rejectMsg 22 (some (0x3a, [v])))) = .ok r ∧
    gmmStep cfg (fun _ => true) r.g (.attachReq prm) = .ok r' ∧ Asks r'.out := by
  obtain ⟨t, ht⟩ := attaching_reach
  obtain ⟨r, r', h1, h2, h3⟩ := c198_never defaultCfg _ attaching_st (fun _ => true) (fun _ => true) 22 (some (0x3a, [0x2a]))
    (fun _ _ x => by injection x with x; injection x with x y; subst x y; exact ⟨.inr rfl, by decide⟩)
    ⟨1, false, 1, [], [], [0x62, 0xf2, 0x20, 0, 1, 0]⟩ rfl
  exact ⟨_, _, t, 0x2a, r, r', _, ht, attaching_st, by unfold BacksOff; decide, h1, h2, h3⟩

/-! ## What holds -/

/-- The timers of GMM. -/
def GmmTimerEv (ev : GmmEv) : Prop := ev = .fsmTimer ∨ ev = .t3314 ∨ ev = .t3312 ∨ ev = .t3316

theorem dereg_timer {cfg : GmmCfg} {ok : GmmOut → Bool} {g : Gmme} {ev : GmmEv} {r : GmmStep} (h : g.st = .dereg)
    (he : GmmTimerEv ev) (hr : gmmStep cfg ok g ev = .ok r) : r.g.st = .dereg ∧ r.out = [] := by
  rcases he with rfl | rfl | rfl | rfl
  · injection hr with hr; subst hr
    unfold fsmTimeout
    rw [h]
    exact ⟨h, rfl⟩
  · injection hr with hr; subst hr
    refine ⟨?_, rfl⟩
    dsimp only
    split
    · exact (t3312Start_same _).st.trans h
    · exact h
  · injection hr with hr; subst hr
    unfold periodicUpdate
    split
    · unfold dispatch gmmFsm
      rw [show ({ g with run3312 := false, rauType := 3 } : Gmme).st = .dereg from h]
      exact ⟨rfl, rfl⟩
    · exact ⟨h, rfl⟩
  · injection hr with hr; subst hr
    refine ⟨?_, rfl⟩
    dsimp only
    split <;> exact h

/-- After a rejection nothing is handed out until something other than a timer of GMM happens. -/
theorem dereg_timers {cfg : GmmCfg} : ∀ (l : List GmmIn) (g g' : Gmme) (t : List GmmObs), g.st = .dereg →
    (∀ i ∈ l, GmmTimerEv i.ev) → gmmRun cfg g l = .ok (g', t) → g'.st = .dereg ∧ ∀ o ∈ t, o.out = [] := by
  intro l
  induction l with
  | nil =>
    intro g g' t h _ hr
    obtain ⟨rfl, rfl⟩ := gmmRun_nil hr
    exact ⟨h, fun _ x => by cases x⟩
  | cons i l ih =>
    intro g g' t h hl hr
    unfold gmmRun at hr
    obtain ⟨r, h1, hr⟩ := bind_eq_ok.1 hr
    obtain ⟨x, h2, hr⟩ := bind_eq_ok.1 hr
    injection hr with hr
    injection hr with hr1 hr2
    subst hr1 hr2
    obtain ⟨k1, k2⟩ := dereg_timer h (hl i (List.mem_cons_self ..)) h1
    obtain ⟨k3, k4⟩ := ih r.g x.1 x.2 k1 (fun j hj => hl j (List.mem_cons_of_mem _ hj)) h2
    refine ⟨k3, fun o ho => ?_⟩
    rcases List.mem_cons.1 ho with rfl | ho
    · exact k2
    · exact k4 o ho

/-- **C198** (partial): ATTACH REJECT, with any cause and timer, ends the attempt; nothing is sent, the user that asked
is told the cause, and the mobile station does not ask again by itself, whichever timers run out and when. -/
theorem c198_partial (cfg : GmmCfg) (g : Gmme) (hst : g.st = .regInit) (ok : GmmOut → Bool) (cause : UInt8)
    (timer : Option (UInt8 × Octets)) (ht : ∀ tag v, timer = some (tag, v) → (tag = 0x2a ∨ tag = 0x3a) ∧ v.length < 256) :
    ∃ r, gmmStep cfg ok g (.rx (rejectMsg cause timer)) = .ok r ∧ r.rc = none ∧ r.g.st = .dereg ∧
      (∀ tlli m, GmmOut.llUnitdata tlli m ∉ r.out) ∧ (g.explicitAtt = true → GmmOut.attachRej cause.toNat ∈ r.out) ∧
      ∀ l g' t, (∀ i ∈ l, GmmTimerEv i.ev) → gmmRun cfg r.g l = .ok (g', t) → g'.st = .dereg ∧ ∀ o ∈ t, o.out = [] := by
  rw [rejectMsg_step cfg ok g cause timer ht, dispatch_rejected hst]
  refine ⟨_, rfl, rfl, rfl, ?_, ?_, fun l g' t hl hr => dereg_timers l _ g' t rfl hl hr⟩
  · intro tlli m hm
    unfold attachFailed toDereg at hm
    dsimp only at hm
    rcases List.mem_append.1 hm with hm | hm
    · split at hm
      · rcases List.mem_singleton.1 hm with ⟨⟩
      · cases hm
    · rcases List.mem_append.1 (submit_sub hm) with hm | hm
      · split at hm
        · rcases List.mem_singleton.1 hm with ⟨⟩
        · cases hm
      · split at hm
        · unfold estRejOut at hm
          split at hm <;> rcases List.mem_singleton.1 hm with ⟨⟩
        · cases hm
  · intro he
    unfold attachFailed
    dsimp only
    rw [if_pos he]
    apply List.mem_append_right
    rw [List.singleton_append, submit]
    split <;> exact List.mem_cons_self ..

/-- The mobile station of the theorems, and an ATTACH REJECT with T3346. -/
example : (runEnd (gmmRun defaultCfg (gmmeAlloc true 0xc0000001 [0, 0, 1, 0, 1] 7) attaching)).1.st = .regInit ∧
    (runEnd (gmmRun defaultCfg (gmmeAlloc true 0xc0000001 [0, 0, 1, 0, 1] 7) attaching)).1.explicitAtt = true ∧
    rejectMsg 22 (some (0x3a, [0x2a])) = [0x08, 0x04, 22, 0x3a, 1, 0x2a] := by decide +kernel

end Verif.Props
