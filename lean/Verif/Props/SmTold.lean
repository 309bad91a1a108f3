import Verif.Props.SmMany
import Verif.Props.Phone
/-!
# C190: a PDP context is reported active only if it was requested from the network
-/
namespace Verif.Props
open Verif Verif.Gmm Verif.Sm Verif.Gsm

/-! ## Specification -/

/-- ACTIVATE PDP CONTEXT REQUEST has been handed to LLC. -/
def Requested (outs : List SgOut) : Prop :=
  ∃ i t b n, SgOut.gmm i (.llUnitdata t b) ∈ outs ∧ n < 16 ∧ IsActReq n b

/-- The neighbours are fair to a device that starts in `s` and has handed out `seen`: the network sends ACTIVATE PDP
CONTEXT ACCEPT (message type 0x42, which GMM does not use) only after a request, and no REJECT with cause 0; SNDCP
gives SNSM-ACTIVATE.rsp only after SNSM-ACTIVATE.ind for the same TLLI and NSAPI. -/
def Fair (cfg : GmmCfg) (who : Nat → Ident) (ok : GmmOut → Bool) : SmGmm → List SgOut → List SgEv → Prop
  | _, _, [] => True
  | s, seen, e :: l =>
    (∀ t a m, e = .gmm (.rx t (a :: 0x42 :: m)) → Requested seen) ∧
    (∀ t b, e = .gmm (.rx t b) → ¬ RejZero b) ∧
    (∀ t n, e = .snsmActRsp t n → ∃ sapi rp q, SgOut.sm (.snsmActInd t n sapi rp q) ∈ seen) ∧
    ∀ s' o, sgStep cfg who ok s e = .ok (s', o) → Fair cfg who ok s' (seen ++ o) l

/-- **C190**, full statement.  In every history of a device with one mobile station and fair neighbours: when the user
is told that the PDP context at an NSAPI is active, ACTIVATE PDP CONTEXT REQUEST for that NSAPI has been handed to
LLC. -/
def C190Statement : Prop :=
  ∀ cfg who ok I id l s outs, OneMs who I id l → Fair cfg who ok sg0 [] l → sgRun cfg who ok sg0 l = .ok (s, outs) →
    ∀ k n pco addr p q, SgOut.sm (.actAcc k n pco addr p q) ∈ outs →
      ∃ t b, SgOut.gmm I (.llUnitdata t b) ∈ outs ∧ IsActReq n b

/-! ## The history that refutes it -/

/-- The user asks for NSAPI 5, the network accepts the mobile station and gets the request for NSAPI 5; the user asks
for NSAPI 6; the network accepts the first request; SNDCP is ready. -/
def mistaken : List SgEv :=
  [.actReq (sgReq 0 5 0xc0000001) [],
   .gmm (.rx (foreignTlli 0xc0000001) (acceptMsg 1 0x4a 4 [0x62, 0xf2, 0x20, 0, 1, 0] (some 0xc0000005))),
   .actReq (sgReq 0 6 0xc0000005) [],
   .gmm (.rx (localTlli 0xc0000005) (actAccMsg 3 4 [0, 0, 0])),
   .snsmActRsp (localTlli 0xc0000005) 6]

/-- Whether the neighbours are fair, for evaluation. -/
def fairB (cfg : GmmCfg) (who : Nat → Ident) (ok : GmmOut → Bool) : SmGmm → List SgOut → List SgEv → Bool
  | _, _, [] => true
  | s, seen, e :: l =>
    (match e with
      | .gmm (.rx _ b) => (decide (b.getD 1 0 ≠ 0x42) || seen.any fun y => match y with
          | .gmm _ (.llUnitdata _ (a :: 0x41 :: n :: _)) => decide (n.toNat < 16 ∧ a.toNat % 16 = 10)
          | _ => false) && decide (b.getD 1 0 ≠ 0x43)
      | .snsmActRsp t n => seen.any fun y => match y with
          | .sm (.snsmActInd t' n' _ _ _) => decide (t' = t ∧ n' = n)
          | _ => false
      | _ => true) &&
    match sgStep cfg who ok s e with
    | .ok r => fairB cfg who ok r.1 (seen ++ r.2) l
    | _ => true

theorem fairB_fair {cfg : GmmCfg} {who : Nat → Ident} {ok : GmmOut → Bool} : ∀ (l : List SgEv) (s : SmGmm) (seen : List SgOut),
    fairB cfg who ok s seen l = true → Fair cfg who ok s seen l := by
  intro l
  induction l with
  | nil => intro s seen _; trivial
  | cons e l ih =>
    intro s seen h
    unfold fairB at h
    rw [Bool.and_eq_true] at h
    obtain ⟨h1, h2⟩ := h
    refine ⟨?_, ?_, ?_, ?_⟩
    · rintro t a m rfl
      dsimp only at h1
      rw [Bool.and_eq_true, Bool.or_eq_true] at h1
      rcases h1.1 with h1 | h1
      · exact absurd (of_decide_eq_true h1) (fun h => h rfl)
      · obtain ⟨y, hy, h3⟩ := List.any_eq_true.1 h1
        split at h3
        · rename_i i t a n m
          obtain ⟨k1, k2⟩ := of_decide_eq_true h3
          exact ⟨i, t, _, n.toNat, hy, k1, a, m, by rw [UInt8.ofNat_toNat], k2⟩
        · cases h3
    · rintro t b rfl ⟨a, m, rfl⟩
      dsimp only at h1
      rw [Bool.and_eq_true] at h1
      exact absurd (of_decide_eq_true h1.2) (fun h => h rfl)
    · rintro t n rfl
      dsimp only at h1
      obtain ⟨y, hy, h3⟩ := List.any_eq_true.1 h1
      split at h3
      · obtain ⟨rfl, rfl⟩ := of_decide_eq_true h3
        exact ⟨_, _, _, hy⟩
      · cases h3
    · intro s' o hs
      rw [hs] at h2
      exact ih s' _ h2

/-- Whether a request for an NSAPI has been handed to LLC. -/
def sendsFor (n : Nat) (o : List SgOut) : Bool :=
  o.any fun y => match y with
    | .gmm _ (.llUnitdata _ b) => decide (b.getD 1 0 = 0x41 ∧ b.getD 2 0 = UInt8.ofNat n)
    | _ => false

/-- **C190 is violated**: the answer to the request for NSAPI 5 is taken for one to NSAPI 6. -/
theorem c190_violated : ¬ C190Statement := by
  intro h
  have hr := sg_ran (cfg := defaultCfg) (l := mistaken) (by decide +kernel)
  have hw : sgRun defaultCfg (fun _ => sgWho 0) yes sg0 mistaken = sgRun defaultCfg sgWho yes sg0 mistaken := rfl
  obtain ⟨t, b, h2, a, rest, rfl, -⟩ := h defaultCfg (fun _ => sgWho 0) yes (sgWho 0).imsi 0 mistaken _ _
    ⟨fun _ => rfl, by
      intro p i d prm he
      simp [mistaken] at he, by
      intro r d he
      simp only [mistaken, List.mem_cons, List.not_mem_nil, or_false, SgEv.actReq.injEq, reduceCtorEq, false_or] at he
      rcases he with he | he <;> (rw [he.1]; rfl), by
      intro e he
      simp only [mistaken, List.mem_cons, List.not_mem_nil, or_false] at he
      rcases he with rfl | rfl | rfl | rfl | rfl <;> trivial⟩
    (fairB_fair _ _ _ (by decide +kernel)) (hw.trans hr) 0 6 [] ⟨33, none, none⟩ 4 [0, 0, 0] (by decide +kernel)
  have hq : sendsFor 6 (sgOuts (sgRun defaultCfg sgWho yes sg0 mistaken)) = false := by decide +kernel
  have : sendsFor 6 (sgOuts (sgRun defaultCfg sgWho yes sg0 mistaken)) = true := by
    unfold sendsFor
    rw [List.any_eq_true]
    exact ⟨_, h2, by simp⟩
  rw [this] at hq
  cases hq

/-! ## What SM hands out because of an event -/

/-- What SM gets because of an event from outside. -/
def Causes (e : SgEv) : SmIn → Prop
  | .actReq r => ∃ d, e = .actReq r d
  | .timeout id n => ∃ d, e = .timeout id n d
  | .snsmActRsp t n => e = .snsmActRsp t n
  | .snsmDeactRsp t n => e = .snsmDeactRsp t n
  | .unitdataInd _ b => ∃ t, e = .gmm (.rx t b)
  | _ => True

section
variable {cfg : GmmCfg} {ok : GmmOut → Bool} {P : SmCtx → Prop} {Q : SmOut → Prop} {C : SmIn → Prop}

theorem sgData_all {s s' : SmGmm} {x : SmOut} {o : List SgOut} (hx : Q x) (h : sgData cfg ok s x = .ok (s', o)) :
    s'.sm = s.sm ∧ ∀ y ∈ o, ∀ z, y = .sm z → Q z := by
  unfold sgData at h
  split at h
  · obtain ⟨r, h1, h⟩ := bind_eq_ok.1 h
    injection h with h
    injection h with h3 h4
    subst h3 h4
    refine ⟨rfl, fun y hy z hz => ?_⟩
    obtain ⟨w, hw, rfl⟩ := List.mem_map.1 hy
    cases hz
  · injection h with h
    injection h with h3 h4
    subst h3 h4
    refine ⟨rfl, fun y hy z hz => ?_⟩
    rw [List.mem_singleton] at hy
    subst hy
    injection hz with hz
    exact hz ▸ hx

theorem sgUp_all (hstep : ∀ c i c' o rc, C i → P c → smStep c i = .ok (c', o, rc) → P c' ∧ ∀ z ∈ o, Q z)
    {s s' : SmGmm} {x : List Nat × GmmOut} {o : List SgOut} (hx : ∀ i, smInOf x.2 = some i → C i) (hi : P s.sm)
    (h : sgUp cfg ok s x = .ok (s', o)) : P s'.sm ∧ ∀ y ∈ o, ∀ z, y = .sm z → Q z := by
  unfold sgUp at h
  split at h
  · injection h with h
    injection h with h3 h4
    subst h3 h4
    refine ⟨hi, fun y hy z hz => ?_⟩
    rw [List.mem_singleton] at hy
    subst hy
    cases hz
  · rename_i e he
    obtain ⟨r, h1, h⟩ := bind_eq_ok.1 h
    obtain ⟨k1, k2⟩ := hstep s.sm e r.1 r.2.1 r.2.2 (hx e he) hi h1
    exact sgFold_inv (P := fun s => P s.sm) (Q := fun y => ∀ z, y = .sm z → Q z) (f := sgData cfg ok) _ ⟨r.1, s.gmm⟩ _ _
      (fun z hz s s' o hp hf => by
        obtain ⟨k3, k4⟩ := sgData_all (k2 z hz) hf
        exact ⟨k3 ▸ hp, k4⟩) k1 h

theorem causes_up {ok : GmmOut → Bool} {L : GmmLayer} {ev : LayerEv} {r : LayerStep} {e : SgEv}
    (h : layerStep cfg ok L ev = .ok r) (he : ∀ t b, ev = .rx t b → e = .gmm (.rx t b)) {x : List Nat × GmmOut}
    (hx : x ∈ sgSeen r) (i : SmIn) (hi : smInOf x.2 = some i) : Causes e i := by
  have := fun s b hb => layer_sm h hx (s := s) (b := b) hb
  revert this hi
  generalize x.2 = z
  intro hi this
  cases z <;> simp only [smInOf, Option.some.injEq, reduceCtorEq] at hi <;> subst hi <;> try trivial
  obtain ⟨t, ht⟩ := this _ _ rfl
  exact ⟨t, he _ _ ht⟩

/-- What every step of SM keeps, and what holds of all it hands out, because of an event. -/
theorem sgStep_all {who : Nat → Ident} {s s' : SmGmm} {e : SgEv} {o : List SgOut}
    (hstep : ∀ c i c' o rc, Causes e i → P c → smStep c i = .ok (c', o, rc) → P c' ∧ ∀ z ∈ o, Q z) (hi : P s.sm)
    (h : sgStep cfg who ok s e = .ok (s', o)) : P s'.sm ∧ ∀ y ∈ o, ∀ z, y = .sm z → Q z := by
  have hsm : ∀ {w : Ident} {draws : List Nat} {i : SmIn}, Causes e i → sgSm cfg ok w draws s i = .ok (s', o) →
      P s'.sm ∧ ∀ y ∈ o, ∀ z, y = .sm z → Q z := by
    intro w draws i hc h
    obtain ⟨r, h1, h⟩ := bind_eq_ok.1 h
    obtain ⟨k1, k2⟩ := hstep s.sm i r.1 r.2.1 r.2.2 hc hi h1
    refine sgFold_inv (P := fun s => P s.sm) (Q := fun y => ∀ z, y = .sm z → Q z) (f := sgDown cfg ok w draws) _ ⟨r.1, s.gmm⟩ _ _
      (fun z hz s s' o hp hf => ?_) k1 h
    unfold sgDown at hf
    split at hf
    · obtain ⟨r, h1, hf⟩ := bind_eq_ok.1 hf
      exact sgFold_inv (P := fun s => P s.sm) (Q := fun y => ∀ z, y = .sm z → Q z) (f := sgUp cfg ok) _ ⟨s.sm, r.layer⟩ _ _
        (fun z hz s s' o hp hf => sgUp_all hstep (causes_up h1 (fun _ _ h => (by cases h)) hz) hp hf) hp hf
    · obtain ⟨k3, k4⟩ := sgData_all (k2 _ hz) hf
      exact ⟨k3 ▸ hp, k4⟩
  cases e with
  | actReq r d => exact hsm (i := .actReq r) ⟨d, rfl⟩ h
  | timeout id n d => exact hsm (i := .timeout id n) ⟨d, rfl⟩ h
  | snsmActRsp t n => exact hsm (i := .snsmActRsp t n) rfl h
  | snsmDeactRsp t n => exact hsm (i := .snsmDeactRsp t n) rfl h
  | gmm ev =>
    obtain ⟨r, h1, h⟩ := bind_eq_ok.1 h
    exact sgFold_inv (P := fun s => P s.sm) (Q := fun y => ∀ z, y = .sm z → Q z) (f := sgUp cfg ok) _ ⟨s.sm, r.layer⟩ _ _
      (fun z hz s s' o hp hf => sgUp_all hstep (causes_up h1 (fun _ _ h => (by rw [h])) hz) hp hf) hi h

end

/-- SNDCP is asked to prepare an NSAPI only because of ACTIVATE PDP CONTEXT ACCEPT. -/
theorem sm_ind {c c' : SmCtx} {ev : SmIn} {o : List SmOut} {rc : Option Errno} (h : smStep c ev = .ok (c', o, rc))
    {t n sp rp : Nat} {q : Octets} (hm : SmOut.snsmActInd t n sp rp q ∈ o) :
    ∃ sess a m, ev = .unitdataInd sess (a :: 0x42 :: m) := by
  have hd : ∀ {c : SmCtx} {id i : Nat} {s : Sme} {e : SmEv} {pre : List SmOut}, smDispatch c id i s e pre = .ok (c', o, rc) →
      e ≠ .rxAcc → SmOut.snsmActInd t n sp rp q ∉ pre → False := by
    intro c id i s e pre h hne hp
    rcases dispatch_ok h with ⟨s', o', hf, -, rfl, -⟩ | ⟨-, -, rfl, -⟩
    · rcases List.mem_append.1 hm with hm | hm
      · exact hp hm
      · rcases smFsm_some hf with ⟨-, -, -, rfl⟩ | ⟨-, -, ⟨-, rfl⟩ | ⟨he, -⟩⟩ | ⟨-, -, rfl⟩ | ⟨_, x, -, -, -, hx, rfl⟩ | ⟨x, -, -, -, hx, rfl⟩
        · rw [List.mem_singleton] at hm; unfold establishOut at hm; cases hm
        · rw [List.mem_singleton] at hm; unfold txActReq at hm; cases hm
        · exact hne he
        · cases hm
        · rw [List.mem_singleton] at hm
          rcases (actCnf_ok hx).2 with ⟨-, rfl⟩ | ⟨-, rfl⟩ <;> cases hm
        · rw [List.mem_singleton] at hm
          rcases (actCnf_ok hx).2 with ⟨-, rfl⟩ | ⟨-, rfl⟩ <;> cases hm
    · exact hp hm
  have hnil : ∀ {c : SmCtx} {e : Option Errno}, Res.ok (c, ([] : List SmOut), e) = Res.ok (c', o, rc) → False := by
    intro c e h
    injection h with h
    injection h with _ h
    injection h with h
    rw [← h] at hm
    cases hm
  have hnp : SmOut.snsmActInd t n sp rp q ∉ ([] : List SmOut) := by simp
  cases ev with
  | actReq r =>
    exfalso
    have hst : ∀ {c : SmCtx}, startAct c r = .ok (c', o, rc) → False := by
      intro c h
      unfold startAct at h
      split at h
      · cases h
      · split at h
        · cases h
        · exact hd h (fun h => (by cases h)) hnp
    simp only [smStep] at h
    unfold actReqStep at h
    split at h
    · cases h
    split at h
    · cases h
    split at h
    · cases h
    split at h
    · split at h
      · split at h
        · exact hnil h
        · exact hst h
      · cases h
    · exact hst h
  | estAcc sess p g tl =>
    exfalso
    simp only [smStep] at h
    rcases withSess_cases h with hr | ⟨id, i, s, _, _, _, _, _, hk⟩
    · exact hnil hr.symm
    · exact hd hk (fun h => (by cases h)) hnp
  | estRej sess =>
    exfalso
    simp only [smStep] at h
    rcases withSess_cases h with hr | ⟨id, i, s, _, _, _, _, _, hk⟩
    · exact hnil hr.symm
    · exact hd hk (fun h => (by cases h)) hnp
  | relInd sess =>
    exfalso
    simp only [smStep] at h
    rcases withSess_cases h with hr | ⟨id, i, s, _, _, _, _, _, hk⟩
    · exact hnil hr.symm
    · exact hd hk (fun h => (by cases h)) hnp
  | unitdataInd sess b =>
    simp only [smStep] at h
    rcases withSess_cases h with hr | ⟨id, i, s, _, _, _, _, _, hk⟩
    · exact (hnil hr.symm).elim
    · unfold smRx at hk
      split at hk
      · exact (hnil hk).elim
      · rename_i hl
        split at hk
        · exact (hnil hk).elim
        · cases hk
        · rename_i ty ht
          split at hk
          · rename_i hty
            subst hty
            match b, hl, ht with
            | [], hl, _ => exact absurd (by decide) hl
            | [_], hl, _ => exact absurd (by simp) hl
            | a :: x :: m, hl, ht =>
              have : rd (a :: x :: m) 1 = .ok x.toNat := rfl
              rw [this] at ht
              injection ht with ht
              have hx : x = 0x42 := UInt8.toNat_inj.1 ht
              exact ⟨sess, a, m, by rw [hx]⟩
          · exfalso
            split at hk
            · split at hk
              · exact hd hk (fun h => (by cases h)) hnp
              · exact hnil hk
              · cases hk
            · exact hnil hk
  | modifyInd sess p g tl st =>
    exfalso
    simp only [smStep] at h
    rcases withSess_cases h with hr | ⟨id, i, s, _, _, _, _, _, hk⟩
    · exact hnil hr.symm
    · injection hk with hk
      injection hk with _ hk
      injection hk with hk
      rw [← hk] at hm
      split at hm
      · unfold statusOuts at hm
        obtain ⟨j, -, hj⟩ := List.mem_filterMap.1 hm
        split at hj
        · split at hj
          · injection hj with hj
            cases hj
          · cases hj
        · cases hj
      · cases hm
  | snsmActRsp tl k =>
    exfalso
    simp only [smStep] at h
    unfold withNsapi at h
    split at h
    · exact hnil h
    · split at h
      · split at h
        · exact hnil h
        · exact hd h (fun h => (by cases h)) hnp
      · cases h
  | snsmDeactRsp tl k =>
    exfalso
    simp only [smStep] at h
    unfold withNsapi at h
    split at h
    · exact hnil h
    · split at h
      · split at h
        · exact hnil h
        · dsimp only at h
          split at h
          · rename_i x hx
            refine hd h (fun h => (by cases h)) ?_
            intro hm
            rw [List.mem_singleton] at hm
            subst hm
            unfold deactOut at hx
            obtain ⟨p, -, hx⟩ := bind_eq_ok.1 hx
            cases hx
          · exact hnil h
          · cases h
      · cases h
  | timeout id i =>
    exfalso
    simp only [smStep] at h
    split at h
    · split at h
      · unfold smTimeout at h
        split at h
        · exact hnil h
        · exact hnil h
        · dsimp only at h
          split at h
          · cases h
          · split at h
            · exact hd h (fun h => (by cases h)) hnp
            · injection h with h
              injection h with _ h
              injection h with h
              rw [← h] at hm
              unfold toPending establishOut at hm
              rw [List.mem_singleton] at hm
              cases hm
      · exact hnil h
    · exact hnil h

/-! ## C190 -/

/-- The mobile stations and NSAPIs that were asked for. -/
def AskedIn (l : List SgEv) (k n : Nat) : Prop := ∃ r d, SgEv.actReq r d ∈ l ∧ r.msId = k ∧ r.nsapi = n

theorem told_step {cfg : GmmCfg} {who : Nat → Ident} {ok : GmmOut → Bool} {s s' : SmGmm} {e : SgEv} {o : List SgOut}
    {A : Nat → Nat → Prop} (hi : SmInv s.sm) (ha : ∀ id n x, s.sm.slot id n = some x → A id n)
    (he : ∀ r d, e = .actReq r d → A r.msId r.nsapi) (hz : ∀ t b, e = .gmm (.rx t b) → ¬ RejZero b)
    (h : sgStep cfg who ok s e = .ok (s', o)) :
    (SmInv s'.sm ∧ ∀ id n x, s'.sm.slot id n = some x → A id n) ∧ ∀ y ∈ o, ∀ z, y = .sm z →
      (∀ t n sp rp q, z = .snsmActInd t n sp rp q → ∃ t a m, e = .gmm (.rx t (a :: 0x42 :: m))) ∧
      (∀ k n pco addr p q, z = .actAcc k n pco addr p q → A k n ∧ ∃ t, e = .snsmActRsp t n) := by
  refine sgStep_all (P := fun c => SmInv c ∧ ∀ id n x, c.slot id n = some x → A id n)
    (Q := fun z => (∀ t n sp rp q, z = .snsmActInd t n sp rp q → ∃ t a m, e = .gmm (.rx t (a :: 0x42 :: m))) ∧
      (∀ k n pco addr p q, z = .actAcc k n pco addr p q → A k n ∧ ∃ t, e = .snsmActRsp t n)) ?_ ⟨hi, ha⟩ h
  rintro c i c' o rc hc ⟨hi, ha⟩ h
  obtain ⟨k1, k2, -⟩ := sm_asked hi ha (fun r hr => by subst hr; obtain ⟨d, hd⟩ := hc; exact he r d hd) h
  refine ⟨⟨k1, k2⟩, fun z hzo => ⟨?_, ?_⟩⟩
  · rintro t n sp rp q rfl
    obtain ⟨sess, a, m, rfl⟩ := sm_ind h hzo
    obtain ⟨t, ht⟩ := hc
    exact ⟨t, a, m, ht⟩
  · rintro k n pco addr p q rfl
    rcases sm_acc hi h hzo with ⟨t, rfl, -⟩ | ⟨sess, b, rfl, hb⟩
    · refine ⟨?_, t, hc⟩
      obtain ⟨-, hch, -⟩ := step_change hi h
      rcases hch with ⟨-, -, h2⟩ | ⟨id, j, s', ht, -⟩
      · obtain ⟨_, _, h3⟩ := h2 _ hzo
        cases h3
      · generalize hs : c.slot id j = sl at ht
        cases ht with
        | keep _ a b o rc h1 h2 h3 h4 =>
          rcases h4 _ hzo with ⟨_, _, h⟩ | ⟨_, _, _, _, _, h⟩ | ⟨_, h⟩ <;> cases h
        | drop _ a o h1 h2 =>
          rcases h2 with ⟨⟨_, h⟩, -⟩ | ⟨⟨_, h⟩, -⟩ | ⟨⟨_, _, h⟩, -⟩ <;> cases h
        | activated t n a h1 =>
          rw [List.mem_singleton] at hzo
          injection hzo with e1 e2
          subst e1 e2
          exact ha _ _ _ hs
    · obtain ⟨t, ht⟩ := hc
      exact absurd hb (hz t b ht)

theorem told_run {cfg : GmmCfg} {who : Nat → Ident} {ok : GmmOut → Bool} {A : Nat → Nat → Prop} : ∀ (l : List SgEv) (s s' : SmGmm)
    (seen o : List SgOut), (∀ r d, SgEv.actReq r d ∈ l → A r.msId r.nsapi) → SmInv s.sm →
    (∀ id n x, s.sm.slot id n = some x → A id n) →
    (∀ t n sp rp q, SgOut.sm (.snsmActInd t n sp rp q) ∈ seen → Requested seen) → Fair cfg who ok s seen l →
    sgRun cfg who ok s l = .ok (s', o) →
    ∀ k n pco addr p q, SgOut.sm (.actAcc k n pco addr p q) ∈ o → A k n ∧ Requested (seen ++ o) := by
  have mono : ∀ {a b : List SgOut}, Requested a → Requested (a ++ b) := by
    rintro a b ⟨i, t, x, n, h1, h2⟩
    exact ⟨i, t, x, n, List.mem_append_left _ h1, h2⟩
  intro l
  induction l with
  | nil =>
    intro s s' seen o _ _ _ _ _ h k n pco addr p q hm
    injection h with h
    injection h with _ h
    subst h
    cases hm
  | cons e l ih =>
    intro s s' seen o hA hi ha hind ⟨f1, f2, f3, f4⟩ h k n pco addr p q hm
    obtain ⟨r, h1, h⟩ := bind_eq_ok.1 h
    obtain ⟨t, h2, h⟩ := bind_eq_ok.1 h
    injection h with h
    injection h with h3 h4
    subst h3 h4
    obtain ⟨⟨k1, k2⟩, k3⟩ := told_step (o := r.2) (s' := r.1) hi ha
      (fun r d hr => hA r d (hr ▸ List.mem_cons_self)) f2 h1
    rcases List.mem_append.1 hm with hm | hm
    · obtain ⟨k4, tl, rfl⟩ := (k3 _ hm _ rfl).2 _ _ _ _ _ _ rfl
      obtain ⟨_, _, _, hs⟩ := f3 tl n rfl
      exact ⟨k4, mono (hind _ _ _ _ _ hs)⟩
    · obtain ⟨k4, k5⟩ := ih r.1 t.1 (seen ++ r.2) t.2 (fun r d hr => hA r d (List.mem_cons_of_mem _ hr)) k1 k2 (by
        intro tl m sp rp qq hs
        rcases List.mem_append.1 hs with hs | hs
        · exact mono (hind _ _ _ _ _ hs)
        · obtain ⟨u, a, b, he⟩ := (k3 _ hs _ rfl).1 _ _ _ _ _ rfl
          exact mono (f1 u a b he)) (f4 r.1 r.2 h1) h2 k n pco addr p q hm
      exact ⟨k4, by rw [← List.append_assoc]; exact k5⟩

/-- **C190** (partial): it holds when all the user ever asks for is one NSAPI. -/
theorem c190_partial (cfg : GmmCfg) (who : Nat → Ident) (ok : GmmOut → Bool) (I : List Nat) (id N : Nat) (l : List SgEv)
    (s : SmGmm) (outs : List SgOut) (h1 : OneMs who I id l) (hN : ∀ r d, SgEv.actReq r d ∈ l → r.nsapi = N)
    (hf : Fair cfg who ok sg0 [] l) (h : sgRun cfg who ok sg0 l = .ok (s, outs)) (k n : Nat) (pco : Octets) (addr : PdpAddr)
    (p : Nat) (q : Octets) (hm : SgOut.sm (.actAcc k n pco addr p q) ∈ outs) :
    k = id ∧ n = N ∧ ∃ t b, SgOut.gmm I (.llUnitdata t b) ∈ outs ∧ IsActReq n b := by
  obtain ⟨⟨r, d, hr, e1, e2⟩, i, t, b, m, h2, h3, h4⟩ := told_run (A := AskedIn l) l sg0 s [] outs
    (fun r d hr => ⟨r, d, hr, rfl, rfl⟩) smInit_inv (fun id n x hx => by simp [sg0, smInit, SmCtx.slot, freshMs] at hx)
    (fun _ _ _ _ _ h => by cases h) hf h k n pco addr p q hm
  have hn := hN r d hr
  obtain ⟨r', d', hr', e3, e4⟩ := c164_partial cfg who ok I l s outs h1.who h1.attach h1.outside h i t b m (by omega) h2 h4
  have hm' := hN r' d' hr'
  refine ⟨e1 ▸ h1.req r d hr, e2 ▸ hn, t, b, ?_, ?_⟩
  · rw [← h1.who r'.msId, e4]; exact h2
  · have : n = m := by omega
    rw [this]; exact h4

/-- Whatever a user is told to be active, they have asked for, and some request was sent before. -/
theorem c190_asked (cfg : GmmCfg) (who : Nat → Ident) (ok : GmmOut → Bool) (l : List SgEv) (s : SmGmm) (outs : List SgOut)
    (hf : Fair cfg who ok sg0 [] l) (h : sgRun cfg who ok sg0 l = .ok (s, outs)) (k n : Nat) (pco : Octets) (addr : PdpAddr)
    (p : Nat) (q : Octets) (hm : SgOut.sm (.actAcc k n pco addr p q) ∈ outs) :
    (∃ r d, SgEv.actReq r d ∈ l ∧ r.msId = k ∧ r.nsapi = n) ∧ Requested outs :=
  told_run (A := AskedIn l) l sg0 s [] outs
    (fun r d hr => ⟨r, d, hr, rfl, rfl⟩) smInit_inv (fun id n x hx => by simp [sg0, smInit, SmCtx.slot, freshMs] at hx)
    (fun _ _ _ _ _ h => by cases h) hf h k n pco addr p q hm

/-- A history that `c190_partial` is about, in which the user is told. -/
example : Fair defaultCfg sgWho yes sg0 [] oneActive ∧ (∀ r d, SgEv.actReq r d ∈ oneActive → r.nsapi = 5) ∧
    SgOut.sm (.actAcc 0 5 [] ⟨33, none, none⟩ 4 [0, 0, 0]) ∈ sgOuts (sgRun defaultCfg sgWho yes sg0 oneActive) := by
  refine ⟨fairB_fair _ _ _ (by decide +kernel), ?_, by decide +kernel⟩
  intro r d he
  simp only [oneActive, activation, List.mem_cons, List.not_mem_nil, or_false, SgEv.actReq.injEq, reduceCtorEq] at he
  rw [he.1]; rfl

end Verif.Props
