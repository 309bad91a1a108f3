import Verif.Props.GmmProc
/-!
# C53: the data link during routing area updating
-/
namespace Verif.Props
open Verif Verif.Gmm
open Verif.Spec.Gmm (LinkEv linkUp linkUp_append)

/-- What the primitives of a list do to the data link. -/
def links : List GmmOut → List LinkEv
  | [] => []
  | .llgmmSuspend _ :: l => .suspend :: links l
  | .llgmmResume _ :: l => .resume :: links l
  | _ :: l => links l

/-- What a history does to the data link. -/
def linksOf : List GmmObs → List LinkEv
  | [] => []
  | o :: t => links o.out ++ linksOf t

/-- C53: the data link is in operation whenever the mobile station is registered and no update runs. -/
def C53Statement : Prop :=
  ∀ cfg g t, GmmReach cfg g t → g.st = .reg → linkUp true (linksOf t) = true

/-- After an update that got no answer the mobile station is registered and its data link suspended. -/
theorem c53_violated : ¬ C53Statement := by
  intro h
  have := h _ _ _ (reach0 (l := toRau ++ expire [yes, yes, yes, yes]) (by decide +kernel)) (by decide +kernel)
  exact absurd this (by decide +kernel)

/-- ROUTING AREA UPDATE REJECT with the given cause. -/
def rauRejMsg (cause : UInt8) : Octets := [0x08, 0x0b, cause, 0x00]

/-- So it is after an update that was rejected with a cause that lets the mobile station stay registered. -/
theorem c53_violated_reject (cause : UInt8) (hc : staysRegistered cause.toNat) :
    ∃ g t, GmmReach defaultCfg g t ∧ g.st = .reg ∧ linkUp true (linksOf t) = false := by
  have h : ∀ c : UInt8, staysRegistered c.toNat = true →
      okRun (gmmRun defaultCfg ms0 (toRau ++ [⟨.rx (rauRejMsg c), yes⟩])) ∧
      (finalOf (gmmRun defaultCfg ms0 (toRau ++ [⟨.rx (rauRejMsg c), yes⟩]))).st = .reg ∧
      linkUp true (linksOf (traceOf (gmmRun defaultCfg ms0 (toRau ++ [⟨.rx (rauRejMsg c), yes⟩])))) = false := by
    intro c hc
    have : c = 13 ∨ c = 15 ∨ c = 25 := by
      unfold staysRegistered at hc
      have hc := of_decide_eq_true hc
      rcases hc with h | h | h
      · exact Or.inl (UInt8.toNat_inj.1 h)
      · exact Or.inr (Or.inl (UInt8.toNat_inj.1 h))
      · exact Or.inr (Or.inr (UInt8.toNat_inj.1 h))
    rcases this with rfl | rfl | rfl <;> decide +kernel
  obtain ⟨h1, h2, h3⟩ := h cause hc
  exact ⟨_, _, reach0 h1, h2, h3⟩

/-! ## What holds -/

theorem links_append (a b : List GmmOut) : links (a ++ b) = links a ++ links b := by
  induction a with
  | nil => rfl
  | cons o a ih => cases o <;> simp [links, ih]

theorem links_plain {l : List GmmOut} (h : ∀ o ∈ l, Plain o) : links l = [] := by
  induction l with
  | nil => rfl
  | cons o l ih =>
    have h1 := h o List.mem_cons_self
    have h2 := ih fun o ho => h o (List.mem_cons_of_mem _ ho)
    cases o <;> first | exact h2 | exact absurd h1 (by simp [Plain])

/-- Neither a suspension nor a resumption. -/
def NoLink : GmmOut → Prop
  | .llgmmSuspend .. | .llgmmResume .. => False
  | _ => True

theorem links_noLink {l : List GmmOut} (h : ∀ o ∈ l, NoLink o) : links l = [] := by
  induction l with
  | nil => rfl
  | cons o l ih =>
    have h1 := h o List.mem_cons_self
    have h2 := ih fun o ho => h o (List.mem_cons_of_mem _ ho)
    cases o <;> first | exact h2 | exact absurd h1 (by simp [NoLink])

theorem toDereg_links (g : Gmme) : links (toDereg g).2 = [] := by
  unfold toDereg
  dsimp only
  split <;> rfl

theorem attachFailed_links {ok : GmmOut → Bool} {g : Gmme} {c : Nat} :
    links (attachFailed ok g c).2 = [] := by
  unfold attachFailed
  dsimp only
  rw [links_append, toDereg_links]
  refine links_noLink fun o ho => ?_
  have ho := submit_sub ho
  rw [List.mem_append] at ho
  rcases ho with ho | ho <;> split at ho
  · rw [List.mem_singleton] at ho; subst ho; trivial
  · cases ho
  · rw [List.mem_singleton] at ho; subst ho; unfold estRejOut; split <;> trivial
  · cases ho

theorem attachDone_links {ok : GmmOut → Bool} {g : Gmme} : links (attachDone ok g).2 = [] := by
  unfold attachDone
  dsimp only
  refine links_noLink fun o ho => ?_
  have ho := submit_sub ho
  rw [List.mem_append] at ho
  rcases ho with ho | ho <;> split at ho
  · rw [List.mem_singleton] at ho; subst ho; trivial
  · cases ho
  · rw [List.mem_singleton] at ho; subst ho; trivial
  · cases ho

theorem txAttReq_links (cfg : GmmCfg) (g : Gmme) : links (txAttReq cfg g).toList = [] := by
  unfold txAttReq
  split <;> rfl

/-- What an event of the state machine does to the data link. -/
inductive FsmLinks (cfg : GmmCfg) (ok : GmmOut → Bool) (g : Gmme) (fe : FsmEv) (x : Gmme × List GmmOut) :
    Prop where
  | none (h : links x.2 = []) (ha : fe = .rauAccepted → g.st ≠ .rauInit)
  | down (hf : fe = .rauRequested) (h : links x.2 = [.suspend])
      (hs : x.1.st = .rauInit ∨ ok (txRauReq cfg g) = false)
  | up (hf : fe = .rauAccepted) (hg : g.st = .rauInit) (h : links x.2 = [.resume]) (hs : x.1.st = .reg)

theorem fsm_links {cfg : GmmCfg} {ok : GmmOut → Bool} {g : Gmme} {fe : FsmEv} {x : Gmme × List GmmOut}
    (h : gmmFsm cfg ok g fe = some x) : FsmLinks cfg ok g fe x := by
  unfold gmmFsm at h
  split at h <;> first | cases h | (injection h with h; subst h)
  all_goals first
    | (refine .none (toDereg_links _) ?_; intro h; cases h; done)
    | (refine .none attachFailed_links ?_; intro h; cases h; done)
    | (refine .none attachDone_links ?_; intro h; cases h; done)
    | (refine .none (txAttReq_links _ _) ?_; intro h; cases h; done)
    | (refine .none rfl ?_; intro h; cases h; done)
    | skip
  · refine .none ?_ (by intro h; cases h)
    unfold startAttach
    split
    · rfl
    · rename_i o h
      unfold txAttReq at h
      split at h
      · injection h with h; subst h; rfl
      · cases h
  · refine .down rfl rfl ?_
    unfold startRau
    dsimp only
    split
    · exact Or.inl rfl
    · rename_i h; exact Or.inr (by simpa using h)
  · rename_i hs; exact .none rfl (fun _ => by rw [hs]; decide)
  · refine .none ?_ (by intro h; cases h)
    unfold rauRejectedAct
    split
    · rfl
    · exact toDereg_links _
  · rename_i hs; exact .up rfl hs rfl rfl

/-- What an event does to the data link. -/
inductive StepLinks (ok : GmmOut → Bool) (g : Gmme) (ev : GmmEv) (r : GmmStep) : Prop where
  | none (h : links r.out = [])
      (ha : ∀ b, ev = .rx b → rd b 1 = .ok 0x09 → g.st = .rauInit → r.g.st = .rauInit)
  | down (hf : ev = .t3312) (h : links r.out = [.suspend]) (hs : r.g.st = .rauInit ∨ ∃ o, ok o = false)
  | up (hf : ∃ b, ev = .rx b ∧ rd b 1 = .ok 0x09) (hg : g.st = .rauInit) (h : links r.out = [.resume])
      (hs : r.g.st = .reg)

theorem dispatch_links_none {cfg : GmmCfg} {ok : GmmOut → Bool} {g : Gmme} {pre : List GmmOut} {fe : FsmEv}
    (h1 : fe ≠ .rauRequested) (h2 : fe ≠ .rauAccepted) (hp : links pre = []) :
    links (dispatch cfg ok g pre fe).out = [] := by
  unfold dispatch
  split
  · rename_i g' out h
    dsimp only
    rw [links_append, hp]
    cases fsm_links h with
    | none h _ => exact h
    | down hf _ _ => exact absurd hf h1
    | up hf _ _ _ => exact absurd hf h2
  · exact hp

theorem msgEv_rauAcc {b : Octets} {fe : FsmEv} (hb : rd b 1 = .ok 0x09) (hf : MsgEv b fe) :
    fe = .rauAccepted := by
  cases fe <;> simp_all [MsgEv]

theorem step_links {cfg : GmmCfg} {ok : GmmOut → Bool} {g : Gmme} {ev : GmmEv} {r : GmmStep}
    (h : gmmStep cfg ok g ev = .ok r) : StepLinks ok g ev r := by
  cases ev with
  | enable on =>
    injection h with h; subst h
    refine .none (dispatch_links_none ?_ ?_ rfl) (by intro b h; cases h)
    all_goals (split <;> (intro h; cases h))
  | attachReq p =>
    injection h with h; subst h
    exact .none (dispatch_links_none (by intro h; cases h) (by intro h; cases h) rfl) (by intro b h; cases h)
  | detachReq t p =>
    injection h with h; subst h
    refine .none ?_ (by intro b h; cases h)
    unfold detachReqAct submitOne
    dsimp only
    rw [links_append, dispatch_links_none (by split <;> (intro h; cases h)) (by split <;> (intro h; cases h)) rfl]
    rfl
  | simAuthRsp a k rnd s kc =>
    injection h with h; subst h
    refine .none ?_ (by intro b h; cases h)
    unfold simAuthRspAct
    split
    · exact links_plain authFinish_plain
    · rfl
  | establishReq s p =>
    injection h with h; subst h
    refine .none ?_ (by intro b h; cases h)
    unfold establishReqAct
    dsimp only
    split
    · rfl
    · exact dispatch_links_none (by intro h; cases h) (by intro h; cases h) rfl
  | smUnitdataReq b => injection h with h; subst h; exact .none rfl (by intro b h; cases h)
  | pageInd => injection h with h; subst h; exact .none rfl (by intro b h; cases h)
  | llcTransmitted => injection h with h; subst h; exact .none rfl (by intro b h; cases h)
  | rx b =>
    cases rx_shape h with
    | quiet hs ho => exact .none (links_plain ho) (fun _ _ _ h => by rw [hs.st]; exact h)
    | event g1 pre fe hs ho hf hg hr =>
      by_cases e : fe = .rauAccepted
      · subst e
        by_cases e2 : g.st = .rauInit
        · have e3 : gmmFsm cfg ok g1 .rauAccepted = some (rauDone g1) := by
            unfold gmmFsm; rw [hs.st, e2]
          refine .up ⟨b, rfl, hf⟩ e2 ?_ ?_
          · rw [hr]
            unfold dispatch
            rw [e3]
            dsimp only
            rw [links_append, links_plain ho]
            rfl
          · rw [hg]
            unfold dispatch
            rw [e3]
            rfl
        · refine .none ?_ (fun _ _ _ h => absurd h e2)
          rw [hr]
          unfold dispatch
          split
          · rename_i g' out h
            dsimp only
            rw [links_append, links_plain ho]
            cases fsm_links h with
            | none h _ => exact h
            | down hf _ _ => cases hf
            | up _ hg _ _ => exact absurd (hs.st.symm.trans hg) e2
          · exact links_plain ho
      · refine .none ?_ ?_
        · rw [hr]
          refine dispatch_links_none ?_ e (links_plain ho)
          intro e'; subst e'; exact hf
        · intro b' hb hm _
          injection hb with hb; subst hb
          exact absurd (msgEv_rauAcc hm hf) e
  | fsmTimer =>
    injection h with h; subst h
    refine .none ?_ (by intro b h; cases h)
    unfold fsmTimeout
    split
    · split
      · exact dispatch_links_none (by intro h; cases h) (by intro h; cases h) rfl
      · exact txAttReq_links _ _
    · split
      · exact dispatch_links_none (by intro h; cases h) (by intro h; cases h) rfl
      · rfl
    · rfl
  | t3314 => injection h with h; subst h; exact .none rfl (by intro b h; cases h)
  | t3312 =>
    injection h with h; subst h
    unfold periodicUpdate
    split
    · generalize { g with run3312 := false, rauType := 3 } = g1
      cases e : gmmFsm cfg ok g1 .rauRequested with
      | none =>
        refine .none ?_ (by intro b h; cases h)
        unfold dispatch; rw [e]; rfl
      | some x =>
        have e2 : (dispatch cfg ok g1 [] .rauRequested) = ⟨x.1, x.2, none⟩ := by
          unfold dispatch; rw [e]; rfl
        rw [e2]
        cases fsm_links e with
        | none h _ => exact .none h (by intro b h; cases h)
        | down _ h hs =>
          refine .down rfl h ?_
          rcases hs with hs | hs
          · exact Or.inl hs
          · exact Or.inr ⟨_, hs⟩
        | up hf _ _ _ => cases hf
    · exact .none rfl (by intro b h; cases h)
  | t3316 => injection h with h; subst h; exact .none rfl (by intro b h; cases h)

/-- In a history no update is broken off: it ends, if at all, with ROUTING AREA UPDATE ACCEPT from the
network, and the lower layer takes the request with which it starts. -/
def UpdatesAnswered (cfg : GmmCfg) : Gmme → List GmmIn → Prop
  | _, [] => True
  | g, i :: l =>
    ∀ r, gmmStep cfg i.ok g i.ev = .ok r →
      (g.st = .rauInit → r.g.st = .rauInit ∨ ∃ b, i.ev = .rx b ∧ rd b 1 = .ok 0x09) ∧
      (i.ev = .t3312 → ∀ o, i.ok o = true) ∧
      UpdatesAnswered cfg r.g l

theorem linksOf_run {cfg : GmmCfg} (l : List GmmIn) :
    ∀ (g g' : Gmme) (t : List GmmObs) (u : Bool), UpdatesAnswered cfg g l → (g.st ≠ .rauInit → u = true) →
      gmmRun cfg g l = .ok (g', t) → g'.st ≠ .rauInit → linkUp u (linksOf t) = true := by
  induction l with
  | nil =>
    intro g g' t u _ hu h hs
    obtain ⟨rfl, rfl⟩ := gmmRun_nil h
    exact hu hs
  | cons i l ih =>
    intro g g' t u hc hu h hs
    obtain ⟨r, t', h1, h2, rfl⟩ := gmmRun_cons h
    obtain ⟨c1, c2, c3⟩ := hc r h1
    rw [linksOf, linkUp_append]
    dsimp only
    refine ih r.g g' t' _ c3 ?_ h2 hs
    intro hr
    cases step_links h1 with
    | none h ha =>
      rw [h]
      by_cases e : g.st = .rauInit
      · rcases c1 e with e2 | ⟨b, e2, e3⟩
        · exact absurd e2 hr
        · exact absurd (ha b e2 e3 e) hr
      · exact hu e
    | down hf h hs =>
      rcases hs with hs | ⟨o, hs⟩
      · exact absurd hs hr
      · rw [c2 hf o] at hs; cases hs
    | up _ _ h _ => rw [h]; rfl

/-- C53, what holds: in the histories in which no update is broken off, the data link is in operation
whenever no update runs. -/
theorem c53_answered_partial {cfg : GmmCfg} (enabled : Bool) (ptmsi rnd : Nat) (imsi : List Nat)
    (l : List GmmIn) (hl : UpdatesAnswered cfg (gmmeAlloc enabled ptmsi imsi rnd) l) {g : Gmme}
    {t : List GmmObs} (h : gmmRun cfg (gmmeAlloc enabled ptmsi imsi rnd) l = .ok (g, t))
    (hs : g.st ≠ .rauInit) : linkUp true (linksOf t) = true :=
  linksOf_run l _ g t true hl (fun _ => rfl) h hs

/-- C53, what holds: ROUTING AREA UPDATE ACCEPT, if it ends an update, puts the data link into operation,
whatever has happened to it before, and gives it the TLLI in force. -/
theorem c53_accept_partial {cfg : GmmCfg} {ok : GmmOut → Bool} {g : Gmme} {b : Octets} {r : GmmStep}
    (hg : g.st = .rauInit) (hb : rd b 1 = .ok 0x09) (h : gmmStep cfg ok g (.rx b) = .ok r)
    (hs : r.g.st ≠ .rauInit) (u : Bool) :
    r.g.st = .reg ∧ linkUp u (links r.out) = true ∧ r.out.getLast? = some (.llgmmResume r.g.tlli) := by
  cases rx_shape h with
  | quiet h1 _ => exact absurd (h1.st.trans hg) hs
  | event g1 pre fe h1 ho hf h2 h3 =>
    have e := msgEv_rauAcc hb hf
    subst e
    have e3 : gmmFsm cfg ok g1 .rauAccepted = some (rauDone g1) := by
      unfold gmmFsm; rw [h1.st, hg]
    have e4 : dispatch cfg ok g1 pre .rauAccepted = ⟨(rauDone g1).1, pre ++ (rauDone g1).2, none⟩ := by
      unfold dispatch; rw [e3]
    rw [e4] at h2 h3
    refine ⟨by rw [h2]; rfl, ?_, ?_⟩
    · rw [h3]
      dsimp only
      rw [links_append, links_plain ho]
      rfl
    · rw [h3, h2]
      dsimp only
      unfold rauDone
      dsimp only
      rw [List.getLast?_append]
      rfl

/-- ROUTING AREA UPDATE ACCEPT of the test of /repo. -/
def rauAccMsg : Octets :=
  [0x08, 0x09, 0x00, 0x05, 0x32, 0xf4, 0x07, 0x00, 0x05, 0x00, 0x18, 0x05, 0xf4, 0xec, 0x99, 0x90, 0x02,
   0x17, 0x05]

/-- The hypotheses are met by an update that the network accepts. -/
example : okRun (gmmRun defaultCfg ms0 (toRau ++ [⟨.rx rauAccMsg, yes⟩])) ∧
    (finalOf (gmmRun defaultCfg ms0 toRau)).st = .rauInit ∧
    rd rauAccMsg 1 = .ok 0x09 ∧
    (finalOf (gmmRun defaultCfg ms0 (toRau ++ [⟨.rx rauAccMsg, yes⟩]))).st = .reg ∧
    linksOf (traceOf (gmmRun defaultCfg ms0 (toRau ++ [⟨.rx rauAccMsg, yes⟩]))) = [.suspend, .resume] := by
  decide +kernel

end Verif.Props
