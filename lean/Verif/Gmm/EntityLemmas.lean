import Verif.Gmm.Entity
/-!
# GMM: lemmas about the entity
-/
namespace Verif.Gmm
open Verif Verif.Gsm

theorem bind_eq_ok {α β : Type} {x : Res α} {f : α → Res β} {r : β} :
    (x >>= f) = .ok r ↔ ∃ a, x = .ok a ∧ f a = .ok r := by
  cases x with
  | ok a => simp
  | err e => simp
  | ub u => simp

/-! ## What messages leave alone -/

/-- The procedures, their counters, the session and the identities are the same. -/
structure Same (g h : Gmme) : Prop where
  st          : h.st = g.st
  attType     : h.attType = g.attType
  withImsi    : h.withImsi = g.withImsi
  explicitAtt : h.explicitAtt = g.explicitAtt
  implicitAtt : h.implicitAtt = g.implicitAtt
  attAttempts : h.attAttempts = g.attAttempts
  detType     : h.detType = g.detType
  rauType     : h.rauType = g.rauType
  rauAttempts : h.rauAttempts = g.rauAttempts
  sess        : h.sess = g.sess
  imsi        : h.imsi = g.imsi
  imei        : h.imei = g.imei
  imeisv      : h.imeisv = g.imeisv

theorem Same.refl (g : Gmme) : Same g g := ⟨rfl, rfl, rfl, rfl, rfl, rfl, rfl, rfl, rfl, rfl, rfl, rfl, rfl⟩

theorem Same.trans {a b c : Gmme} (h : Same a b) (k : Same b c) : Same a c :=
  ⟨k.st.trans h.st, k.attType.trans h.attType, k.withImsi.trans h.withImsi,
   k.explicitAtt.trans h.explicitAtt, k.implicitAtt.trans h.implicitAtt,
   k.attAttempts.trans h.attAttempts, k.detType.trans h.detType, k.rauType.trans h.rauType,
   k.rauAttempts.trans h.rauAttempts, k.sess.trans h.sess, k.imsi.trans h.imsi, k.imei.trans h.imei,
   k.imeisv.trans h.imeisv⟩

macro "same" : tactic =>
  `(tactic| exact ⟨rfl, rfl, rfl, rfl, rfl, rfl, rfl, rfl, rfl, rfl, rfl, rfl, rfl⟩)

theorem t3312Start_same (g : Gmme) : Same g (t3312Start g) := by unfold t3312Start; split <;> same
theorem t3312Stop_same (g : Gmme) : Same g (t3312Stop g) := by same
theorem t3316Stop_same (g : Gmme) : Same g (t3316Stop g) := by same
theorem t3316Start_same (cfg : GmmCfg) (g : Gmme) : Same g (t3316Start cfg g) := by
  unfold t3316Start; split <;> same
theorem readyStart_same (g : Gmme) : Same g (readyStart g) := by unfold readyStart; split <;> same
theorem readyStop_same (g : Gmme) : Same g (readyStop g) := by
  unfold readyStop
  split
  · exact Same.trans (by same : Same g { g with run3314 := false }) (t3312Start_same _)
  · same
theorem readyNegotiated_same (g : Gmme) : Same g (readyNegotiated g) := by
  unfold readyNegotiated
  split
  · exact (readyStop_same _).trans (t3312Start_same _)
  · same

theorem applySig_same {b : Octets} {ies : List Ie} {g h : Gmme} (e : applySig b ies g = .ok h) :
    Same g h := by
  unfold applySig at e
  split at e
  · obtain ⟨v, _, e⟩ := bind_eq_ok.1 e
    injection e with e; subst e; same
  · injection e with e; subst e; same

theorem applyReady_same {cfg : GmmCfg} {b : Octets} {ies : List Ie} {g h : Gmme}
    (e : applyReady cfg b ies g = .ok h) : Same g h := by
  unfold applyReady at e
  split at e
  · obtain ⟨v, _, e⟩ := bind_eq_ok.1 e
    injection e with e; subst e
    exact Same.trans (by same : Same g { g with t3314s := tmrAssigned v }) (readyNegotiated_same _)
  · injection e with e; subst e
    exact Same.trans (by same : Same g { g with t3314s := cfg.t3314 }) (readyNegotiated_same _)

theorem updatePtmsi_same (g : Gmme) (p : Nat) : Same g (updatePtmsi g p) := by same

theorem applyPtmsi_same {b : Octets} {ies : List Ie} {g h : Gmme} (e : applyPtmsi b ies g = .ok (some h)) :
    Same g h := by
  unfold applyPtmsi at e
  split at e
  · obtain ⟨v, _, e⟩ := bind_eq_ok.1 e
    injection e with e
    rw [Option.map_eq_some_iff] at e
    obtain ⟨p, _, rfl⟩ := e
    exact updatePtmsi_same _ _
  · injection e with e; injection e with e; subst e; same

theorem applyFixed_same (g : Gmme) (t : Nat) (f : Bool) (ra : Octets) : Same g (applyFixed g t f ra) := by
  have h1 : Same g (if tmrAssigned t = 0 then t3312Stop { g with t3312s := 0 }
      else { g with t3312s := tmrAssigned t }) := by split <;> same
  unfold applyFixed
  generalize (if tmrAssigned t = 0 then t3312Stop { g with t3312s := 0 }
      else { g with t3312s := tmrAssigned t }) = x at h1 ⊢
  have h2 : Same g (if f then readyStop x else x) := by
    split
    · exact h1.trans (readyStop_same _)
    · exact h1
  generalize (if f then readyStop x else x) = y at h2 ⊢
  exact h2.trans (by same)

theorem applyNpdu_same {b : Octets} {ies : List Ie} {g h : Gmme} (e : applyNpdu b ies g = .ok h) :
    Same g h := by
  unfold applyNpdu at e
  split at e
  · obtain ⟨v, _, e⟩ := bind_eq_ok.1 e
    injection e with e; subst e; same
  · injection e with e; subst e; same

theorem applyPdpStatus_same {b : Octets} {ies : List Ie} {g h : Gmme}
    (e : applyPdpStatus b ies g = .ok h) : Same g h := by
  unfold applyPdpStatus at e
  split at e
  · obtain ⟨v, _, e⟩ := bind_eq_ok.1 e
    injection e with e; subst e; same
  · injection e with e; subst e; same

theorem attAccIes_same {cfg : GmmCfg} {b : Octets} {g : Gmme} {r : Gmme × Bool}
    (e : attAccIes cfg b g = .ok r) : Same g r.1 := by
  unfold attAccIes at e
  split at e
  · split at e
    · injection e with e; subst e; same
    · cases e
    · obtain ⟨g1, h1, e⟩ := bind_eq_ok.1 e
      obtain ⟨g2, h2, e⟩ := bind_eq_ok.1 e
      obtain ⟨o, h3, e⟩ := bind_eq_ok.1 e
      have s2 := (applySig_same h1).trans (applyReady_same h2)
      cases o with
      | none => injection e with e; subst e; exact s2
      | some g3 => injection e with e; subst e; exact s2.trans (applyPtmsi_same h3)
  · injection e with e; subst e; same

theorem rauAccRest_same {cfg : GmmCfg} {b : Octets} {ies : List Ie} {g : Gmme} {r : Gmme × Bool}
    (e : rauAccRest cfg b ies g = .ok r) : Same g r.1 := by
  obtain ⟨g1, h1, e⟩ := bind_eq_ok.1 e
  obtain ⟨g2, h2, e⟩ := bind_eq_ok.1 e
  obtain ⟨g3, h3, e⟩ := bind_eq_ok.1 e
  injection e with e; subst e
  exact ((applyNpdu_same h1).trans (applyReady_same h2)).trans (applyPdpStatus_same h3)

theorem rauAccIes_same {cfg : GmmCfg} {b : Octets} {g : Gmme} {r : Gmme × Bool}
    (e : rauAccIes cfg b g = .ok r) : Same g r.1 := by
  unfold rauAccIes at e
  split at e
  · split at e
    · injection e with e; subst e; same
    · cases e
    · obtain ⟨g1, h1, e⟩ := bind_eq_ok.1 e
      obtain ⟨o, h2, e⟩ := bind_eq_ok.1 e
      cases o with
      | none => injection e with e; subst e; exact applySig_same h1
      | some g2 =>
        obtain ⟨im, _, e⟩ := bind_eq_ok.1 e
        have s2 := (applySig_same h1).trans (applyPtmsi_same h2)
        split at e
        · exact s2.trans (rauAccRest_same e)
        · injection e with e; subst e; exact s2
  · injection e with e; subst e; same

theorem authApply_same (ok : GmmOut → Bool) (g : Gmme) (o2 o3 : Nat) (r : Option (Octets × Nat)) :
    Same g (authApply ok g o2 o3 r).g := by
  have s1 : Same g (if o3 % 16 ≠ 0 then readyStop g else g) := by
    split
    · exact readyStop_same _
    · same
  unfold authApply
  dsimp only
  generalize (if o3 % 16 ≠ 0 then readyStop g else g) = g1 at s1 ⊢
  split
  · split
    · exact s1.trans (by same)
    · exact s1.trans (by same)
  · unfold authFinish
    split
    · unfold authAnswer
      split
      · exact s1.trans (by same)
      · exact s1.trans (by same)
    · exact s1.trans (by same)

/-! ## Primitives that say nothing about procedures -/

/-- Not a confirmation of an attach, a release, a suspension or a resumption. -/
def Plain : GmmOut → Prop
  | .attachAcc .. | .attachRej .. | .estAcc .. | .estRej .. | .releaseInd .. | .llgmmSuspend ..
  | .llgmmResume .. => False
  | _ => True

theorem submit_sub {ok : GmmOut → Bool} {l : List GmmOut} {o : GmmOut} (h : o ∈ (submit ok l).1) :
    o ∈ l := by
  induction l with
  | nil => exact h
  | cons a l ih =>
    unfold submit at h
    split at h
    · rcases List.mem_cons.1 h with rfl | h
      · exact List.mem_cons_self
      · exact List.mem_cons_of_mem _ (ih h)
    · rw [List.mem_singleton] at h; subst h; exact List.mem_cons_self

theorem submit_all {ok : GmmOut → Bool} {l : List GmmOut} (h : (submit ok l).2 = true) :
    (submit ok l).1 = l := by
  induction l with
  | nil => rfl
  | cons a l ih =>
    unfold submit at h ⊢
    split at h
    · rename_i ha
      rw [if_pos ha]
      exact congrArg (a :: ·) (ih h)
    · cases h

theorem submit_ok {ok : GmmOut → Bool} {l : List GmmOut} (h : ∀ o ∈ l, ok o = true) :
    submit ok l = (l, true) := by
  induction l with
  | nil => rfl
  | cons a l ih =>
    have ha := h a List.mem_cons_self
    have hl := ih fun o ho => h o (List.mem_cons_of_mem _ ho)
    rw [submit, if_pos ha, hl]

/-- The message `b` makes the state machine see the event. -/
def MsgEv (b : Octets) : FsmEv → Prop
  | .attachAccepted => rd b 1 = .ok 0x02
  | .attachRejected c => (rd b 1 = .ok 0x04 ∧ rd b 2 = .ok c) ∨ (rd b 1 = .ok 0x14 ∧ c = 23)
  | .detachAccepted => rd b 1 = .ok 0x06
  | .rauAccepted => rd b 1 = .ok 0x09
  | .rauRejected _ => rd b 1 = .ok 0x0b
  | _ => False

/-- What a message does: it changes data and sends plain primitives, and may then produce one event. -/
inductive RxShape (cfg : GmmCfg) (ok : GmmOut → Bool) (g : Gmme) (b : Octets) (r : GmmStep) : Prop where
  | quiet (hs : Same g r.g) (ho : ∀ o ∈ r.out, Plain o)
  | event (g1 : Gmme) (pre : List GmmOut) (fe : FsmEv) (hs : Same g g1) (ho : ∀ o ∈ pre, Plain o)
      (hf : MsgEv b fe) (hg : r.g = (dispatch cfg ok g1 pre fe).g)
      (hr : r.out = (dispatch cfg ok g1 pre fe).out)

theorem rejected_shape {cfg : GmmCfg} {ok : GmmOut → Bool} {g g1 : Gmme} {b : Octets} {r : GmmStep}
    {out : List GmmOut} (hs : Same g g1) (ho : ∀ o ∈ out, Plain o) (h : rejected g1 out = .ok r) :
    RxShape cfg ok g b r := by
  unfold rejected at h
  injection h with h; subst h
  exact .quiet hs ho

theorem submitThen_shape {cfg : GmmCfg} {ok : GmmOut → Bool} {g g1 : Gmme} {b : Octets} {r : GmmStep}
    {outs : List GmmOut} {fe : FsmEv} (hs : Same g g1) (ho : ∀ o ∈ outs, Plain o) (hf : MsgEv b fe)
    (h : submitThen cfg ok g1 outs fe = .ok r) : RxShape cfg ok g b r := by
  unfold submitThen at h
  split at h
  · injection h with h; subst h
    exact .event g1 _ fe hs (fun o h => ho o (submit_sub h)) hf rfl rfl
  · exact rejected_shape hs (fun o h => ho o (submit_sub h)) h

theorem plain_nil : ∀ o ∈ ([] : List GmmOut), Plain o := fun _ h => by cases h

theorem plain_one {x : GmmOut} (hx : Plain x) : ∀ o ∈ [x], Plain o := fun o ho => by
  rw [List.mem_singleton] at ho; subst ho; exact hx

theorem standby_same (c : Prop) [Decidable c] (g : Gmme) : Same g (if c then readyStop g else g) := by
  split
  · exact readyStop_same _
  · same

theorem rxAttAcc_shape {cfg : GmmCfg} {ok : GmmOut → Bool} {g : Gmme} {b : Octets} {r : GmmStep}
    (hm : rd b 1 = .ok 0x02) (h : rxAttAcc cfg ok g b = .ok r) : RxShape cfg ok g b r := by
  unfold rxAttAcc at h
  split at h
  · exact rejected_shape (Same.refl _) plain_nil h
  · obtain ⟨o, _, h⟩ := bind_eq_ok.1 h
    obtain ⟨t, _, h⟩ := bind_eq_ok.1 h
    obtain ⟨ra, _, h⟩ := bind_eq_ok.1 h
    obtain ⟨x, hx, h⟩ := bind_eq_ok.1 h
    have hs := (applyFixed_same g t (decide (o / 16 ≠ 0)) ra).trans (attAccIes_same hx)
    unfold attAccEnd at h
    split at h
    · refine submitThen_shape (fe := .attachAccepted) hs ?_ hm h
      intro o ho
      simp only [List.mem_cons, List.not_mem_nil, or_false] at ho
      rcases ho with rfl | rfl | rfl <;> trivial
    · exact rejected_shape hs plain_nil h

theorem rxAttRej_shape {cfg : GmmCfg} {ok : GmmOut → Bool} {g : Gmme} {b : Octets} {r : GmmStep}
    (hm : rd b 1 = .ok 0x04) (h : rxAttRej cfg ok g b = .ok r) : RxShape cfg ok g b r := by
  unfold rxAttRej at h
  split at h
  · exact rejected_shape (Same.refl _) plain_nil h
  · obtain ⟨c, hc, h⟩ := bind_eq_ok.1 h
    split at h
    · exact rejected_shape (Same.refl _) plain_nil h
    · cases h
    · injection h with h; subst h
      exact .event g [] (.attachRejected c) (Same.refl _) plain_nil (Or.inl ⟨hm, hc⟩) rfl rfl

theorem rxDetachAcc_shape {cfg : GmmCfg} {ok : GmmOut → Bool} {g : Gmme} {b : Octets} {r : GmmStep}
    (hm : rd b 1 = .ok 0x06) (h : rxDetachAcc cfg ok g b = .ok r) : RxShape cfg ok g b r := by
  unfold rxDetachAcc at h
  split at h
  · exact rejected_shape (Same.refl _) plain_nil h
  · obtain ⟨o, _, h⟩ := bind_eq_ok.1 h
    have s1 := standby_same (o / 16 = 1) g
    generalize (if o / 16 = 1 then readyStop g else g) = g1 at s1 h
    dsimp only at h
    refine submitThen_shape (fe := .detachAccepted) (s1.trans (by same)) ?_ hm h
    intro o ho
    simp only [List.mem_cons, List.not_mem_nil, or_false] at ho
    rcases ho with rfl | rfl <;> trivial

theorem rxRauAcc_shape {cfg : GmmCfg} {ok : GmmOut → Bool} {g : Gmme} {b : Octets} {r : GmmStep}
    (hm : rd b 1 = .ok 0x09) (h : rxRauAcc cfg ok g b = .ok r) : RxShape cfg ok g b r := by
  unfold rxRauAcc at h
  split at h
  · exact rejected_shape (Same.refl _) plain_nil h
  · obtain ⟨o, _, h⟩ := bind_eq_ok.1 h
    obtain ⟨t, _, h⟩ := bind_eq_ok.1 h
    obtain ⟨ra, _, h⟩ := bind_eq_ok.1 h
    obtain ⟨x, hx, h⟩ := bind_eq_ok.1 h
    have hs := (applyFixed_same g t (decide (o % 16 ≠ 0)) ra).trans (rauAccIes_same hx)
    unfold rauAccEnd at h
    split at h
    · refine submitThen_shape (fe := .rauAccepted) hs ?_ hm h
      intro o ho
      simp only [List.mem_append, List.mem_cons, List.not_mem_nil, or_false] at ho
      rcases ho with ((rfl | rfl) | ho) | rfl
      · trivial
      · trivial
      · split at ho
        · rw [List.mem_singleton] at ho; subst ho; trivial
        · cases ho
      · trivial
    · exact rejected_shape hs plain_nil h

theorem rxRauRej_shape {cfg : GmmCfg} {ok : GmmOut → Bool} {g : Gmme} {b : Octets} {r : GmmStep}
    (hm : rd b 1 = .ok 0x0b) (h : rxRauRej cfg ok g b = .ok r) : RxShape cfg ok g b r := by
  unfold rxRauRej at h
  split at h
  · injection h with h; subst h
    exact .event g [] (.rauRejected causeSemIncorr) (Same.refl _) plain_nil hm rfl rfl
  · obtain ⟨c, _, h⟩ := bind_eq_ok.1 h
    obtain ⟨o, _, h⟩ := bind_eq_ok.1 h
    have s1 := standby_same (o / 16 = 1) g
    generalize (if o / 16 = 1 then readyStop g else g) = g1 at s1 h
    dsimp only at h
    split at h
    · cases h
    · injection h with h; subst h
      exact .event g1 [] (.rauRejected c) s1 plain_nil hm rfl rfl

theorem rxIdReq_shape {cfg : GmmCfg} {ok : GmmOut → Bool} {g : Gmme} {b : Octets} {r : GmmStep}
    (h : rxIdReq ok g b = .ok r) : RxShape cfg ok g b r := by
  unfold rxIdReq at h
  split at h
  · exact rejected_shape (Same.refl _) plain_nil h
  · obtain ⟨o, _, h⟩ := bind_eq_ok.1 h
    have s1 := standby_same (o / 16 = 1) g
    generalize (if o / 16 = 1 then readyStop g else g) = g1 at s1 h
    dsimp only at h
    split at h
    · injection h with h; subst h
      exact .quiet s1 plain_nil
    · injection h with h; subst h
      exact .quiet s1 (plain_one trivial)

theorem rxPtmsiReall_shape {cfg : GmmCfg} {ok : GmmOut → Bool} {g : Gmme} {b : Octets} {r : GmmStep}
    (h : rxPtmsiReall ok g b = .ok r) : RxShape cfg ok g b r := by
  unfold rxPtmsiReall at h
  split at h
  · exact rejected_shape (Same.refl _) plain_nil h
  · obtain ⟨l, _, h⟩ := bind_eq_ok.1 h
    split at h
    · exact rejected_shape (Same.refl _) plain_nil h
    · obtain ⟨mi, _, h⟩ := bind_eq_ok.1 h
      split at h
      · exact rejected_shape (Same.refl _) plain_nil h
      · rename_i p _
        obtain ⟨ra, _, h⟩ := bind_eq_ok.1 h
        obtain ⟨o, _, h⟩ := bind_eq_ok.1 h
        have s0 : Same g { updatePtmsi g p with ra := ra } := by same
        have s1 := s0.trans (standby_same (o / 16 = 1) { updatePtmsi g p with ra := ra })
        generalize (if o / 16 = 1 then readyStop { updatePtmsi g p with ra := ra }
            else { updatePtmsi g p with ra := ra }) = g1 at s1 h
        unfold ptmsiReallEnd at h
        split at h
        · injection h with h; subst h
          refine .quiet s1 ?_
          intro o ho
          simp only [submitOne, List.mem_append, List.mem_cons, List.not_mem_nil, or_false] at ho
          rcases ho with (rfl | rfl) | rfl <;> trivial
        · refine rejected_shape s1 ?_ h
          intro o ho
          have ho := submit_sub ho
          simp only [List.mem_cons, List.not_mem_nil, or_false] at ho
          rcases ho with rfl | rfl <;> trivial

theorem authFinish_plain {ok : GmmOut → Bool} {g : Gmme} {sres : Option Octets} :
    ∀ o ∈ (authFinish ok g sres).out, Plain o := by
  intro o ho
  unfold authFinish at ho
  split at ho
  · unfold authAnswer at ho
    split at ho
    · rw [List.mem_singleton] at ho; subst ho; trivial
    · simp only [submitOne, List.mem_append, List.mem_cons, List.not_mem_nil, or_false] at ho
      rcases ho with rfl | rfl <;> trivial
  · simp only [List.mem_cons, List.not_mem_nil, or_false] at ho
    rcases ho with rfl | rfl <;> trivial

theorem authFinish_same {ok : GmmOut → Bool} {g : Gmme} {sres : Option Octets} :
    Same g (authFinish ok g sres).g := by
  unfold authFinish
  split
  · unfold authAnswer
    split <;> same
  · same

theorem rxAuthReq_shape {cfg : GmmCfg} {ok : GmmOut → Bool} {g : Gmme} {b : Octets} {r : GmmStep}
    (h : rxAuthReq ok g b = .ok r) : RxShape cfg ok g b r := by
  unfold rxAuthReq at h
  split at h
  · injection h with h; subst h
    exact .quiet (by same) (plain_one trivial)
  · obtain ⟨o2, _, h⟩ := bind_eq_ok.1 h
    obtain ⟨o3, _, h⟩ := bind_eq_ok.1 h
    split at h
    · cases h
    · injection h with h; subst h
      exact .quiet (by same) (plain_one trivial)
    · obtain ⟨x, _, h⟩ := bind_eq_ok.1 h
      injection h with h; subst h
      refine .quiet (authApply_same ok g o2 o3 x) ?_
      intro o ho
      unfold authApply at ho
      dsimp only at ho
      split at ho
      · split at ho
        · rw [List.mem_singleton] at ho; subst ho; trivial
        · simp only [List.mem_cons, List.not_mem_nil, or_false] at ho
          rcases ho with rfl | rfl <;> trivial
      · exact authFinish_plain _ ho

theorem rxInfo_shape {cfg : GmmCfg} {ok : GmmOut → Bool} {g : Gmme} {b : Octets} {r : GmmStep}
    (h : rxInfo g b = .ok r) : RxShape cfg ok g b r := by
  unfold rxInfo at h
  split at h
  · cases h
  · exact rejected_shape (Same.refl _) plain_nil h
  · injection h with h; subst h
    exact .quiet (Same.refl _) plain_nil

theorem gmmRx_shape {cfg : GmmCfg} {ok : GmmOut → Bool} {g : Gmme} {b : Octets} {mt : Nat} {r : GmmStep}
    (hm : rd b 1 = .ok mt) (h : gmmRx cfg ok g b mt = .ok r) : RxShape cfg ok g b r := by
  unfold gmmRx at h
  by_cases e : mt = 0x02
  · rw [if_pos e] at h
    exact rxAttAcc_shape (e ▸ hm) h
  rw [if_neg e] at h
  clear e
  by_cases e : mt = 0x04
  · rw [if_pos e] at h
    exact rxAttRej_shape (e ▸ hm) h
  rw [if_neg e] at h
  clear e
  by_cases e : mt = 0x06
  · rw [if_pos e] at h
    exact rxDetachAcc_shape (e ▸ hm) h
  rw [if_neg e] at h
  clear e
  by_cases e : mt = 0x09
  · rw [if_pos e] at h
    exact rxRauAcc_shape (e ▸ hm) h
  rw [if_neg e] at h
  clear e
  by_cases e : mt = 0x0b
  · rw [if_pos e] at h
    exact rxRauRej_shape (e ▸ hm) h
  rw [if_neg e] at h
  clear e
  by_cases e : mt = 0x15
  · rw [if_pos e] at h
    exact rxIdReq_shape h
  rw [if_neg e] at h
  clear e
  by_cases e : mt = 0x10
  · rw [if_pos e] at h
    exact rxPtmsiReall_shape h
  rw [if_neg e] at h
  clear e
  by_cases e : mt = 0x12
  · rw [if_pos e] at h
    exact rxAuthReq_shape h
  rw [if_neg e] at h
  clear e
  by_cases e : mt = 0x14
  · rw [if_pos e] at h
    injection h with h; subst h
    exact .event g [] (.attachRejected 23) (Same.refl _) plain_nil (Or.inr ⟨e ▸ hm, rfl⟩) rfl rfl
  rw [if_neg e] at h
  clear e
  by_cases e : mt = 0x20
  · rw [if_pos e] at h
    by_cases e' : b.length < 3
    · rw [if_pos e'] at h; exact rejected_shape (Same.refl _) plain_nil h
    · rw [if_neg e'] at h
      injection h with h; subst h
      exact .quiet (Same.refl _) plain_nil
  rw [if_neg e] at h
  clear e
  by_cases e : mt = 0x21
  · rw [if_pos e] at h
    exact rxInfo_shape h
  rw [if_neg e] at h
  clear e
  exact rejected_shape (Same.refl _) plain_nil h

theorem rx_shape {cfg : GmmCfg} {ok : GmmOut → Bool} {g : Gmme} {b : Octets} {r : GmmStep}
    (h : rxLlUnitdata cfg ok g b = .ok r) : RxShape cfg ok g b r := by
  unfold rxLlUnitdata at h
  split at h
  · exact rejected_shape (Same.refl _) (fun _ h => by cases h) h
  · obtain ⟨pd, _, h⟩ := bind_eq_ok.1 h
    obtain ⟨mt, hm, h⟩ := bind_eq_ok.1 h
    split at h
    · exact gmmRx_shape hm h
    · split at h
      · injection h with h; subst h
        refine .quiet (Same.refl _) ?_
        intro o ho
        simp only [submitOne, List.nil_append, List.mem_singleton] at ho
        subst ho; trivial
      · cases h

/-! ## Histories -/

/-- One event together with the answers of the neighbours to what it makes the layer hand out. -/
structure GmmIn where
  ev : GmmEv
  ok : GmmOut → Bool

/-- What is seen of one event. -/
structure GmmObs where
  ev  : GmmEv
  out : List GmmOut
  rc  : Option Errno

/-- A history. -/
def gmmRun (cfg : GmmCfg) : Gmme → List GmmIn → Res (Gmme × List GmmObs)
  | g, [] => .ok (g, [])
  | g, i :: l => do
    let r ← gmmStep cfg i.ok g i.ev
    let t ← gmmRun cfg r.g l
    .ok (t.1, ⟨i.ev, r.out, r.rc⟩ :: t.2)

theorem gmmRun_nil {cfg : GmmCfg} {g g' : Gmme} {t : List GmmObs} (h : gmmRun cfg g [] = .ok (g', t)) :
    g' = g ∧ t = [] := by
  unfold gmmRun at h
  injection h with h
  injection h with h1 h2
  exact ⟨h1.symm, h2.symm⟩

theorem gmmRun_cons {cfg : GmmCfg} {g g' : Gmme} {i : GmmIn} {l : List GmmIn} {t : List GmmObs}
    (h : gmmRun cfg g (i :: l) = .ok (g', t)) :
    ∃ r t', gmmStep cfg i.ok g i.ev = .ok r ∧ gmmRun cfg r.g l = .ok (g', t') ∧
      t = ⟨i.ev, r.out, r.rc⟩ :: t' := by
  unfold gmmRun at h
  obtain ⟨r, hr, h⟩ := bind_eq_ok.1 h
  obtain ⟨x, hx, h⟩ := bind_eq_ok.1 h
  injection h with h
  injection h with h1 h2
  subst h1
  exact ⟨r, x.2, hr, hx, h2.symm⟩

/-- Induction over histories: what holds at the start and is kept by each event holds at the end. -/
theorem gmmRun_inv {cfg : GmmCfg} (P : Gmme → Prop)
    (hstep : ∀ g ok ev r, P g → gmmStep cfg ok g ev = .ok r → P r.g) :
    ∀ (l : List GmmIn) (g g' : Gmme) (t : List GmmObs), P g → gmmRun cfg g l = .ok (g', t) → P g' := by
  intro l
  induction l with
  | nil => intro g g' t hp h; rw [(gmmRun_nil h).1]; exact hp
  | cons i l ih =>
    intro g g' t hp h
    obtain ⟨r, t', h1, h2, _⟩ := gmmRun_cons h
    exact ih r.g g' t' (hstep _ _ _ _ hp h1) h2

end Verif.Gmm
