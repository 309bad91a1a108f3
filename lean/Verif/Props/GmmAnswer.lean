import Verif.Props.GmmLink
/-!
# C87, C88: every attach request is answered, once and truthfully

The two services are GMMREG-ATTACH and GMMSM-ESTABLISH.  A request counts as taken when the primitive does
not return `-EPERM`.
-/
namespace Verif.Props
open Verif Verif.Gmm
open Verif.Spec.Gmm (Mark answered answered_append)

/-- The service asked for. -/
inductive Service where
  | attach | establish
  deriving DecidableEq, Repr

/-- The confirmations among primitives. -/
def told : Service → List GmmOut → List Mark
  | _, [] => []
  | .attach, .attachAcc .. :: l => .told true :: told .attach l
  | .attach, .attachRej .. :: l => .told false :: told .attach l
  | .establish, .estAcc .. :: l => .told true :: told .establish l
  | .establish, .estRej .. :: l => .told false :: told .establish l
  | s, _ :: l => told s l

/-- Whether an event is a request for the service. -/
def isReq : Service → GmmEv → Bool
  | .attach, .attachReq _ => true
  | .establish, .establishReq .. => true
  | _, _ => false

/-- What the user of the service sees of an event. -/
def marksIn (s : Service) (ev : GmmEv) (out : List GmmOut) (rc : Option Errno) : List Mark :=
  (if isReq s ev = true ∧ rc ≠ some .eperm then [.asked] else []) ++ told s out

/-- What the user of the service sees of a history. -/
def marksOf (s : Service) : List GmmObs → List Mark
  | [] => []
  | o :: t => marksIn s o.ev o.out o.rc ++ marksOf s t

/-- C87: in every history each request taken is answered by one confirmation, and there is none that
nobody waits for: an answer is owed only as long as the attach procedure runs. -/
def C87Statement : Prop :=
  ∀ cfg g t, GmmReach cfg g t → ∀ s,
    ∃ w, answered false (marksOf s t) = some w ∧ (w = true → g.st = .regInit)

/-- The request is taken, the lower layer refuses the message, and nothing more happens. -/
theorem c87_violated : ¬ C87Statement := by
  intro h
  obtain ⟨w, h1, h2⟩ := h _ _ _ (reach0 (l := [⟨.attachReq prm0, fun _ => false⟩]) (by decide +kernel)) .attach
  have h3 : answered false (marksOf .attach (traceOf (gmmRun defaultCfg ms0
    [⟨.attachReq prm0, fun _ => false⟩]))) = some true := by decide +kernel
  rw [h3] at h1
  injection h1 with h1
  exact absurd (h2 h1.symm) (by decide +kernel)

/-- Detaching while the attach procedure runs leaves the request without an answer. -/
theorem c87_violated_detach :
    ∃ g t, GmmReach defaultCfg g t ∧ g.st = .dereg ∧ answered false (marksOf .attach t) = some true :=
  ⟨_, _, reach0 (l := [⟨.attachReq prm0, yes⟩, ⟨.detachReq 1 false, yes⟩]) (by decide +kernel),
    by decide +kernel, by decide +kernel⟩

/-- A refused GMMREG-ATTACH.cnf leaves the session management without an answer. -/
theorem c87_violated_refused :
    ∃ g t, GmmReach defaultCfg g t ∧ g.st = .dereg ∧ answered false (marksOf .establish t) = some true :=
  ⟨_, _, reach0 (l := [⟨.establishReq 7 prm0, yes⟩, ⟨.attachReq prm0, yes⟩,
      ⟨.rx [0x08, 0x04, 0x07], fun _ => false⟩]) (by decide +kernel), by decide +kernel, by decide +kernel⟩

/-! ## What holds -/

theorem told_append (s : Service) (a b : List GmmOut) : told s (a ++ b) = told s a ++ told s b := by
  induction a with
  | nil => rfl
  | cons o a ih => cases o <;> cases s <;> simp [told, ih]

/-- Not a confirmation of an attach. -/
def NoCnf : GmmOut → Prop
  | .attachAcc .. | .attachRej .. | .estAcc .. | .estRej .. => False
  | _ => True

theorem told_noCnf {s : Service} {l : List GmmOut} (h : ∀ o ∈ l, NoCnf o) : told s l = [] := by
  induction l with
  | nil => cases s <;> rfl
  | cons o l ih =>
    have h1 := h o List.mem_cons_self
    have h2 := ih fun o ho => h o (List.mem_cons_of_mem _ ho)
    cases o <;> cases s <;> first | exact h2 | exact absurd h1 (by simp [NoCnf])

theorem noCnf_plain {o : GmmOut} (h : Plain o) : NoCnf o := by
  cases o <;> first | trivial | exact absurd h (by simp [Plain])

theorem told_plain {s : Service} {l : List GmmOut} (h : ∀ o ∈ l, Plain o) : told s l = [] :=
  told_noCnf fun o ho => noCnf_plain (h o ho)

theorem told_llUnitdata (s : Service) (t : Nat) (b : Octets) : told s [.llUnitdata t b] = [] := by
  cases s <;> rfl

/-- The flag that stands for a request for the service. -/
def flag : Service → Gmme → Bool
  | .attach, g => g.explicitAtt
  | .establish, g => g.implicitAtt

theorem flag_same {s : Service} {g h : Gmme} (e : Same g h) : flag s h = flag s g := by
  cases s
  · exact e.explicitAtt
  · exact e.implicitAtt

theorem flag_toDereg (s : Service) (g : Gmme) : flag s (toDereg g).1 = false := by cases s <;> rfl

theorem told_toDereg (s : Service) (g : Gmme) : told s (toDereg g).2 = [] := by
  refine told_noCnf fun o ho => ?_
  unfold toDereg at ho
  dsimp only at ho
  split at ho
  · rw [List.mem_singleton] at ho; subst ho; trivial
  · cases ho

theorem told_txAttReq (s : Service) (cfg : GmmCfg) (g : Gmme) : told s (txAttReq cfg g).toList = [] := by
  refine told_noCnf fun o ho => ?_
  unfold txAttReq at ho
  split at ho
  · rw [Option.toList, List.mem_singleton] at ho; subst ho; trivial
  · cases ho

theorem told_startRau {s : Service} {cfg : GmmCfg} {ok : GmmOut → Bool} {g : Gmme} :
    told s (startRau cfg ok g).2 = [] := by cases s <;> rfl

theorem told_startAttach {s : Service} {cfg : GmmCfg} {ok : GmmOut → Bool} {g : Gmme} :
    told s (startAttach cfg ok g).2 = [] := by
  have := told_txAttReq s cfg g
  unfold startAttach
  split
  · cases s <;> rfl
  · rename_i o h
    rw [h] at this
    exact this

theorem told_estRej {s : Service} {g : Gmme} {c : Nat} :
    told s [estRejOut g c] = if s = .establish then [.told (decide (c = 0))] else [] := by
  unfold estRejOut
  by_cases h : c = 0 <;> cases s <;> simp [told, h]

/-- The confirmations of an attach that failed: none if the service was not asked for, and one unless the
confirmation of the other service was refused. -/
theorem told_attachFailed {s : Service} {ok : GmmOut → Bool} {g : Gmme} {c : Nat} :
    told s (attachFailed ok g c).2 =
      if flag s g = true ∧ (s = .establish → g.explicitAtt = true → ok (.attachRej c) = true)
      then [.told (decide (s = .establish ∧ c = 0))] else [] := by
  unfold attachFailed
  dsimp only
  rw [told_append, told_toDereg, List.nil_append]
  cases he : g.explicitAtt <;> cases hi : g.implicitAtt <;> cases s <;>
    cases ho : ok (.attachRej c) <;> cases hp : ok (estRejOut g c) <;>
    simp [submit, flag, he, hi, ho, hp, told, told_estRej]


/-- Deregistered with or without an attach procedure running. -/
def Attaching (g : Gmme) : Prop := g.st = .dereg ∨ g.st = .regInit

/-- What an event of the state machine tells the user of a service. -/
inductive FsmTold (cfg : GmmCfg) (ok : GmmOut → Bool) (s : Service) (g : Gmme) (fe : FsmEv)
    (x : Gmme × List GmmOut) : Prop where
  | silent (h : told s x.2 = [])
      (hj : Attaching x.1 → flag s x.1 = true → Attaching g ∧ flag s g = true)
      (hk : (∀ o, ok o = true) → g.st = .regInit → flag s g = true →
        (x.1.st = .regInit ∧ flag s x.1 = true) ∨ fe = .detachRequested ∨ fe = .detachPoweroff)
  | tells (b : Bool) (h : told s x.2 = [.told b]) (hg : g.st = .regInit) (hf : flag s g = true)
      (hj : Attaching x.1 → flag s x.1 = false)

theorem FsmTold.cleared {cfg : GmmCfg} {ok : GmmOut → Bool} {s : Service} {g : Gmme} {fe : FsmEv}
    {x : Gmme × List GmmOut} (h : told s x.2 = []) (hf : Attaching x.1 → flag s x.1 = false)
    (hk : g.st ≠ .regInit ∨ fe = .detachRequested ∨ fe = .detachPoweroff) : FsmTold cfg ok s g fe x :=
  .silent h (fun a b => by rw [hf a] at b; cases b)
    (fun _ a _ => by rcases hk with hk | hk; exact absurd a hk; exact Or.inr hk)

theorem not_attaching_reg {g : Gmme} (h : g.st = .reg) : ¬ Attaching g := by
  unfold Attaching; rw [h]; simp

theorem told_attachDone {s : Service} {ok : GmmOut → Bool} {g : Gmme} :
    told s (attachDone ok g).2 =
      if flag s g = true ∧ (s = .establish → g.explicitAtt = true → ok (attachAccOut g) = true)
      then [.told true] else [] := by
  unfold attachDone
  dsimp only
  cases he : g.explicitAtt <;> cases hi : g.implicitAtt <;> cases s <;>
    cases ho : ok (attachAccOut g) <;> cases hp : ok (estAccOut g) <;>
    simp [submit, flag, he, hi, ho, hp] <;> simp [told, attachAccOut, estAccOut]

theorem fsm_told {cfg : GmmCfg} {ok : GmmOut → Bool} {s : Service} {g : Gmme} {fe : FsmEv}
    {x : Gmme × List GmmOut} (h : gmmFsm cfg ok g fe = some x) : FsmTold cfg ok s g fe x := by
  unfold gmmFsm at h
  split at h <;> first | cases h | (injection h with h; subst h)
  -- null, enable
  · rename_i hs
    exact .cleared (told_toDereg s g) (fun _ => flag_toDereg s g) (Or.inl (by rw [hs]; decide))
  -- dereg, disable
  · rename_i hs
    exact .cleared (by cases s <;> rfl) (fun h => by rcases h with h | h <;> cases h)
      (Or.inl (by rw [hs]; decide))
  -- dereg, attachRequested
  · rename_i hs
    refine .silent told_startAttach ?_ (fun _ h => by rw [hs] at h; cases h)
    intro _ hf
    refine ⟨Or.inl hs, ?_⟩
    unfold startAttach at hf
    split at hf
    · exact hf
    · dsimp only at hf
      split at hf
      · cases s <;> exact hf
      · exact hf
  -- regInit, attachRequested
  · rename_i hs
    exact .silent (told_txAttReq s cfg g) (fun a b => ⟨a, b⟩) (fun _ h f => Or.inl ⟨h, f⟩)
  -- regInit, attachRejected
  · rename_i hs
    have e := told_attachFailed (s := s) (ok := ok) (g := g) (c := ‹Nat›)
    split at e
    · rename_i hc
      exact .tells _ e hs hc.1 (fun _ => flag_toDereg s g)
    · rename_i hc
      refine .silent e (fun _ hf => absurd ((flag_toDereg s g).symm.trans hf) (by decide)) ?_
      intro hok _ hf
      exact absurd ⟨hf, fun _ _ => hok _⟩ hc
  -- regInit, lowLvlFail
  · rename_i hs
    have e := told_attachFailed (s := s) (ok := ok) (g := g) (c := causeMacFail)
    split at e
    · rename_i hc
      exact .tells _ e hs hc.1 (fun _ => flag_toDereg s g)
    · rename_i hc
      refine .silent e (fun _ hf => absurd ((flag_toDereg s g).symm.trans hf) (by decide)) ?_
      intro hok _ hf
      exact absurd ⟨hf, fun _ _ => hok _⟩ hc
  -- regInit, attachAccepted
  · rename_i hs
    have e := told_attachDone (s := s) (ok := ok) (g := g)
    split at e
    · rename_i hc
      exact .tells _ e hs hc.1 (fun h => absurd h (not_attaching_reg rfl))
    · rename_i hc
      refine .silent e (fun h => absurd h (not_attaching_reg rfl)) ?_
      intro hok _ hf
      exact absurd ⟨hf, fun _ _ => hok _⟩ hc
  -- regInit, detachRequested
  · exact .cleared (told_toDereg s g) (fun _ => flag_toDereg s g) (Or.inr (Or.inl rfl))
  -- reg, rauRequested
  · rename_i hs
    refine .cleared told_startRau ?_ (Or.inl (by rw [hs]; decide))
    intro h
    exfalso
    unfold startRau at h
    dsimp only at h
    split at h
    · rcases h with h | h <;> cases h
    · exact not_attaching_reg hs h
  -- reg, detachRequested
  · rename_i hs
    exact .cleared (by cases s <;> rfl) (fun h => by rcases h with h | h <;> cases h)
      (Or.inl (by rw [hs]; decide))
  -- deregInit
  · rename_i hs
    exact .cleared (told_toDereg s g) (fun _ => flag_toDereg s g) (Or.inl (by rw [hs]; decide))
  · rename_i hs
    exact .cleared (told_toDereg s g) (fun _ => flag_toDereg s g) (Or.inl (by rw [hs]; decide))
  · rename_i hs
    exact .cleared (by cases s <;> rfl) (fun h => absurd h (not_attaching_reg rfl))
      (Or.inl (by rw [hs]; decide))
  -- rauInit
  · rename_i hs
    exact .cleared (by cases s <;> rfl) (fun h => absurd h (not_attaching_reg rfl))
      (Or.inl (by rw [hs]; decide))
  · rename_i hs
    refine .cleared ?_ ?_ (Or.inl (by rw [hs]; decide))
    · unfold rauRejectedAct
      split
      · cases s <;> rfl
      · exact told_toDereg s g
    · unfold rauRejectedAct
      split
      · exact fun h => absurd h (not_attaching_reg rfl)
      · exact fun _ => flag_toDereg s g
  · rename_i hs
    exact .cleared (by cases s <;> rfl) (fun h => absurd h (not_attaching_reg rfl))
      (Or.inl (by rw [hs]; decide))
  -- detachPoweroff
  · exact .cleared (told_toDereg s g) (fun _ => flag_toDereg s g) (Or.inr (Or.inr rfl))

/-- While deregistered, the flag of a service stands for an answer that is owed. -/
def Pending (s : Service) (w : Bool) (g : Gmme) : Prop := Attaching g → flag s g = true → w = true

/-- An answer is owed only while the attach procedure runs for the service. -/
def OnlyWhile (s : Service) (w : Bool) (g : Gmme) : Prop := w = true → g.st = .regInit ∧ flag s g = true

theorem Pending.same {s : Service} {w : Bool} {g h : Gmme} (p : Pending s w g) (e : Same g h) :
    Pending s w h := by
  unfold Pending Attaching
  rw [e.st, flag_same e]
  exact p

theorem OnlyWhile.same {s : Service} {w : Bool} {g h : Gmme} (p : OnlyWhile s w g) (e : Same g h) :
    OnlyWhile s w h := by
  unfold OnlyWhile
  rw [e.st, flag_same e]
  exact p

theorem dispatch_told {cfg : GmmCfg} {ok : GmmOut → Bool} {s : Service} {g : Gmme} {pre : List GmmOut}
    {fe : FsmEv} {w : Bool} (hp : told s pre = []) (hj : Pending s w g) :
    ∃ w', answered w (told s (dispatch cfg ok g pre fe).out) = some w' ∧
      Pending s w' (dispatch cfg ok g pre fe).g ∧
      ((∀ o, ok o = true) → fe ≠ .detachRequested → fe ≠ .detachPoweroff → OnlyWhile s w g →
        OnlyWhile s w' (dispatch cfg ok g pre fe).g) := by
  unfold dispatch
  cases e : gmmFsm cfg ok g fe with
  | none =>
    dsimp only
    rw [hp]
    exact ⟨w, rfl, hj, fun _ _ _ h => h⟩
  | some x =>
    dsimp only
    rw [told_append, hp, List.nil_append]
    cases fsm_told (s := s) e with
    | silent h hj' hk =>
      rw [h]
      refine ⟨w, rfl, fun a b => ?_, fun hok h1 h2 ho hw => ?_⟩
      · obtain ⟨c, d⟩ := hj' a b; exact hj c d
      · obtain ⟨c, d⟩ := ho hw
        rcases hk hok c d with h | h | h
        · exact h
        · exact absurd h h1
        · exact absurd h h2
    | tells b h hg hf hj' =>
      rw [h, hj (Or.inr hg) hf]
      refine ⟨false, rfl, fun a c => ?_, fun _ _ _ _ h => by cases h⟩
      rw [hj' a] at c; cases c


/-- What is asked of the neighbours and of the user for a request to be answered: every primitive is
accepted, no detach is requested while the attach procedure runs, and the IMSI is known if it is to be
sent. -/
def Calm (g : Gmme) (i : GmmIn) : Prop :=
  (∀ o, i.ok o = true) ∧
  (g.st = .regInit → ∀ t p, i.ev ≠ .detachReq t p) ∧
  (∀ p, i.ev = .attachReq p → p.withImsi = true → g.imsi ≠ []) ∧
  (∀ s p, i.ev = .establishReq s p → p.withImsi = true → g.imsi ≠ [])

theorem txAttReq_some {cfg : GmmCfg} {g : Gmme} (h : g.withImsi = true → g.imsi ≠ []) :
    ∃ o, txAttReq cfg g = some o := by
  unfold txAttReq buildAttachReq
  cases hw : g.withImsi with
  | false => exact ⟨_, rfl⟩
  | true =>
    have := h hw
    cases hi : g.imsi with
    | nil => exact absurd hi this
    | cons d l => exact ⟨_, rfl⟩

/-- Asking for an attach. -/
theorem request_told {cfg : GmmCfg} {ok : GmmOut → Bool} {s : Service} {g : Gmme} {at' : Nat} {wi ex : Bool}
    {w : Bool} {ev : GmmEv} (hs : isReq s ev = decide ((s = .attach) = (ex = true))) (hj : Pending s w g) :
    ∃ w', answered w (marksIn s ev (requestAttach cfg ok g at' wi ex).out (requestAttach cfg ok g at' wi ex).rc) =
        some w' ∧ Pending s w' (requestAttach cfg ok g at' wi ex).g ∧
      ((∀ o, ok o = true) → (wi = true → g.imsi ≠ []) → OnlyWhile s w g →
        OnlyWhile s w' (requestAttach cfg ok g at' wi ex).g) := by
  unfold requestAttach
  generalize hg : { g with attType := at', withImsi := wi, explicitAtt := g.explicitAtt || ex,
                           implicitAtt := g.implicitAtt || !ex } = g1
  have h1 : g1.st = g.st := by rw [← hg]
  have h2 : flag s g1 = (flag s g || isReq s ev) := by
    rw [hs, ← hg]; cases s <;> cases ex <;> simp [flag]
  have h3 : g1.withImsi = wi := by rw [← hg]
  have h4 : g1.imsi = g.imsi := by rw [← hg]
  clear hg
  by_cases ha : isReq s ev = true
  · rw [ha, Bool.or_true] at h2
    cases hd : gmmFsm cfg ok g1 .attachRequested with
    | none =>
      have e : dispatch cfg ok g1 [] .attachRequested = ⟨g1, [], some .eperm⟩ := by unfold dispatch; rw [hd]
      rw [e]
      have hn : ¬ Attaching g1 := by
        rintro (h | h) <;> (unfold gmmFsm at hd; rw [h] at hd; cases hd)
      refine ⟨w, ?_, fun h => absurd h hn, fun _ _ ho hw => ?_⟩
      · cases s <;> simp [marksIn, told, answered]
      · exact absurd (Or.inr (h1.trans (ho hw).1)) hn
    | some x =>
      have e : dispatch cfg ok g1 [] .attachRequested = ⟨x.1, x.2, none⟩ := by unfold dispatch; rw [hd]; rfl
      obtain ⟨w', a, b, c⟩ := dispatch_told (cfg := cfg) (ok := ok) (s := s) (g := g1) (pre := [])
        (fe := .attachRequested) (w := true) (by cases s <;> rfl) (fun _ _ => rfl)
      rw [e] at a b c ⊢
      refine ⟨w', ?_, b, fun hok hi _ => ?_⟩
      · unfold marksIn
        rw [if_pos ⟨ha, by simp⟩]
        exact a
      · obtain ⟨o, ho⟩ := txAttReq_some (cfg := cfg) (g := g1) (by rw [h3, h4]; exact hi)
        intro hw
        unfold gmmFsm at hd
        cases hst : g1.st <;> rw [hst] at hd <;> try (exfalso; cases hd; done)
        · injection hd with hd
          subst hd
          unfold startAttach
          rw [ho]
          dsimp only
          rw [if_pos (hok o)]
          exact ⟨rfl, by cases s <;> exact h2⟩
        · injection hd with hd
          subst hd
          exact ⟨hst, h2⟩
  · have ha' : isReq s ev = false := by simpa using ha
    rw [ha', Bool.or_false] at h2
    obtain ⟨w', a, b, c⟩ := dispatch_told (cfg := cfg) (ok := ok) (s := s) (g := g1) (pre := [])
      (fe := .attachRequested) (w := w) (by cases s <;> rfl)
      (by unfold Pending Attaching; rw [h1, h2]; exact hj)
    refine ⟨w', ?_, b, fun hok _ ho => c hok (by decide) (by decide) ?_⟩
    · unfold marksIn
      rw [if_neg (fun h => ha h.1)]
      exact a
    · unfold OnlyWhile; rw [h1, h2]; exact ho

theorem marks_other {s : Service} {ev : GmmEv} {out : List GmmOut} {rc : Option Errno}
    (h : isReq s ev = false) : marksIn s ev out rc = told s out := by
  unfold marksIn
  rw [if_neg (fun h' => by rw [h] at h'; cases h'.1)]
  rfl

/-- Confirmations do not make an answer due. -/
theorem answered_told {s : Service} {out : List GmmOut} {w w' : Bool}
    (h : answered w (told s out) = some w') (hw : w' = true) : w = true := by
  induction out generalizing w with
  | nil => cases s <;> (injection h with h; rw [h]; exact hw)
  | cons o l ih =>
    cases w with
    | true => rfl
    | false => cases o <;> cases s <;> first | exact ih h | cases h

/-- What the user of a service sees of one event. -/
theorem step_told {cfg : GmmCfg} {ok : GmmOut → Bool} (s : Service) {g : Gmme} {ev : GmmEv} {r : GmmStep}
    {w : Bool} (hj : Pending s w g) (h : gmmStep cfg ok g ev = .ok r) :
    ∃ w', answered w (marksIn s ev r.out r.rc) = some w' ∧ Pending s w' r.g ∧
      (Calm g ⟨ev, ok⟩ → OnlyWhile s w g → OnlyWhile s w' r.g) := by
  have quiet : ∀ {g' : Gmme} {out : List GmmOut} {rc : Option Errno}, isReq s ev = false → Same g g' →
      (∀ o ∈ out, Plain o) → ∃ w', answered w (marksIn s ev out rc) = some w' ∧ Pending s w' g' ∧
        (Calm g ⟨ev, ok⟩ → OnlyWhile s w g → OnlyWhile s w' g') := by
    intro g' out rc h1 h2 h3
    rw [marks_other h1, told_plain h3]
    exact ⟨w, rfl, hj.same h2, fun _ ho => ho.same h2⟩
  have disp : ∀ {g1 : Gmme} {pre : List GmmOut} {fe : FsmEv} {rc : Option Errno}, isReq s ev = false →
      Pending s w g1 → (OnlyWhile s w g → OnlyWhile s w g1) → (∀ o ∈ pre, Plain o) →
      fe ≠ .detachRequested → fe ≠ .detachPoweroff →
      ∃ w', answered w (marksIn s ev (dispatch cfg ok g1 pre fe).out rc) = some w' ∧
        Pending s w' (dispatch cfg ok g1 pre fe).g ∧
        (Calm g ⟨ev, ok⟩ → OnlyWhile s w g → OnlyWhile s w' (dispatch cfg ok g1 pre fe).g) := by
    intro g1 pre fe rc h1 h2 h3 h4 h5 h6
    rw [marks_other h1]
    obtain ⟨w', a, b, c⟩ := dispatch_told (cfg := cfg) (ok := ok) (s := s) (g := g1) (pre := pre)
      (fe := fe) (w := w) (told_plain h4) h2
    exact ⟨w', a, b, fun hc ho => c hc.1 h5 h6 (h3 ho)⟩
  have nil : ∀ o ∈ ([] : List GmmOut), Plain o := plain_nil
  cases ev with
  | enable on =>
    injection h with h; subst h
    refine disp (by cases s <;> rfl) hj id nil ?_ ?_ <;> (split <;> (intro h; cases h))
  | attachReq p =>
    injection h with h; subst h
    have hj' : Pending s w { storeIdentities g p with ptmsiSig := p.sig } := by cases s <;> exact hj
    obtain ⟨w', a, b, c⟩ := request_told (cfg := cfg) (ok := ok) (at' := p.attType) (wi := p.withImsi)
      (ex := true) (ev := .attachReq p) (by cases s <;> simp [isReq]) hj'
    refine ⟨w', a, b, fun hc ho => c hc.1 ?_ (by cases s <;> exact ho)⟩
    exact fun hi => hc.2.2.1 p rfl hi
  | detachReq t p =>
    injection h with h; subst h
    rw [marks_other (by cases s <;> rfl)]
    unfold detachReqAct submitOne
    dsimp only
    rw [told_append, told_llUnitdata, List.append_nil]
    obtain ⟨w', a, b, c⟩ := dispatch_told (cfg := cfg) (ok := ok) (s := s) (g := { g with detType := t })
      (pre := []) (fe := if p then .detachPoweroff else .detachRequested) (w := w) (by cases s <;> rfl)
      (by cases s <;> exact hj)
    refine ⟨w', a, b, fun hc ho => ?_⟩
    -- nothing is owed
    have hw : w = false := by
      cases w with
      | false => rfl
      | true => exact absurd rfl (hc.2.1 (ho rfl).1 t p)
    subst hw
    intro hw'
    exact absurd (answered_told a hw') (by decide)
  | simAuthRsp a k rnd s' kc =>
    injection h with h; subst h
    unfold simAuthRspAct
    split
    · exact quiet (by cases s <;> rfl) (Same.trans (Same.trans (by same : Same g { g with kc := kc })
        (t3316Start_same _ _)) authFinish_same) authFinish_plain
    · exact quiet (by cases s <;> rfl) (Same.refl g) nil
  | establishReq sess p =>
    injection h with h; subst h
    unfold establishReqAct
    dsimp only
    split
    · rename_i hs
      refine ⟨if s = .establish then false else w, ?_, ?_, ?_⟩
      · have hrc : (submitOne ok { g with sess := sess, ptmsiSig := p.sig } []
            (estAccOut { g with sess := sess, ptmsiSig := p.sig })).rc ≠ some .eperm := by
          unfold submitOne; dsimp only; split <;> simp
        unfold marksIn
        cases s with
        | attach => rfl
        | establish => rw [if_pos ⟨rfl, hrc⟩]; rfl
      · intro h; exact absurd h (not_attaching_reg hs)
      · intro _ ho
        cases s with
        | establish => intro h; cases h
        | attach => exact ho
    · have hj' : Pending s w (storeIdentities { g with sess := sess, ptmsiSig := p.sig } p) := by
        cases s <;> exact hj
      obtain ⟨w', a, b, c⟩ := request_told (cfg := cfg) (ok := ok) (at' := p.attType) (wi := p.withImsi)
        (ex := false) (ev := .establishReq sess p) (by cases s <;> simp [isReq]) hj'
      refine ⟨w', a, b, fun hc ho => c hc.1 ?_ (by cases s <;> exact ho)⟩
      exact fun hi => hc.2.2.2 sess p rfl hi
  | smUnitdataReq b =>
    injection h with h; subst h
    exact quiet (by cases s <;> rfl) (Same.refl g) (plain_one trivial)
  | pageInd =>
    injection h with h; subst h
    exact quiet (by cases s <;> rfl) (readyStart_same g) (plain_one trivial)
  | llcTransmitted =>
    injection h with h; subst h
    exact quiet (by cases s <;> rfl) (readyStart_same g) nil
  | rx b =>
    cases rx_shape h with
    | quiet hs ho => exact quiet (by cases s <;> rfl) hs ho
    | event g1 pre fe hs ho hf hg hr =>
      rw [hg, hr]
      refine disp (by cases s <;> rfl) (hj.same hs) (fun h => h.same hs) ho ?_ ?_
      · intro e; subst e; exact hf
      · intro e; subst e; exact hf
  | fsmTimer =>
    injection h with h; subst h
    unfold fsmTimeout
    split
    · split
      · exact disp (by cases s <;> rfl) (by cases s <;> exact hj) (by cases s <;> exact id) nil (by decide)
          (by decide)
      · rename_i hs _
        rw [marks_other (by cases s <;> rfl)]
        dsimp only
        rw [told_txAttReq]
        exact ⟨w, rfl, by cases s <;> exact hj, fun _ => by cases s <;> exact id⟩
    · split
      · exact disp (by cases s <;> rfl) (by cases s <;> exact hj) (by cases s <;> exact id) nil (by decide)
          (by decide)
      · rw [marks_other (by cases s <;> rfl)]
        dsimp only
        unfold txRauReq
        rw [told_llUnitdata]
        exact ⟨w, rfl, by cases s <;> exact hj, fun _ => by cases s <;> exact id⟩
    · exact quiet (by cases s <;> rfl) (Same.refl g) nil
  | t3314 =>
    injection h with h; subst h
    refine quiet (by cases s <;> rfl) ?_ nil
    split
    · exact Same.trans (by same : Same g { g with run3314 := false }) (t3312Start_same _)
    · exact Same.refl g
  | t3312 =>
    injection h with h; subst h
    unfold periodicUpdate
    split
    · exact disp (by cases s <;> rfl) (by cases s <;> exact hj) (by cases s <;> exact id) nil (by decide)
        (by decide)
    · exact quiet (by cases s <;> rfl) (Same.refl g) nil
  | t3316 =>
    injection h with h; subst h
    refine quiet (by cases s <;> rfl) ?_ nil
    split
    · same
    · exact Same.refl g


theorem run_told {cfg : GmmCfg} (s : Service) (l : List GmmIn) :
    ∀ (g g' : Gmme) (t : List GmmObs) (w : Bool), Pending s w g → gmmRun cfg g l = .ok (g', t) →
      ∃ w', answered w (marksOf s t) = some w' ∧ Pending s w' g' := by
  induction l with
  | nil =>
    intro g g' t w hj h
    obtain ⟨rfl, rfl⟩ := gmmRun_nil h
    exact ⟨w, rfl, hj⟩
  | cons i l ih =>
    intro g g' t w hj h
    obtain ⟨r, t', h1, h2, rfl⟩ := gmmRun_cons h
    obtain ⟨w1, a, b, _⟩ := step_told s hj h1
    obtain ⟨w2, c, d⟩ := ih r.g g' t' w1 b h2
    refine ⟨w2, ?_, d⟩
    rw [marksOf, answered_append]
    dsimp only
    rw [a]
    exact c

/-- C87, what holds of all histories: there is never a confirmation that nobody waits for. -/
theorem c87_solicited_partial {cfg : GmmCfg} {g : Gmme} {t : List GmmObs} (h : GmmReach cfg g t)
    (s : Service) : answered false (marksOf s t) ≠ none := by
  obtain ⟨en, p, rnd, imsi, l, h⟩ := h
  obtain ⟨w, a, _⟩ := run_told s l _ g t false (fun _ h => by cases s <;> cases h) h
  rw [a]; simp

/-- The events of a history happen as `Calm` demands. -/
def CalmRun (cfg : GmmCfg) : Gmme → List GmmIn → Prop
  | _, [] => True
  | g, i :: l => Calm g i ∧ ∀ r, gmmStep cfg i.ok g i.ev = .ok r → CalmRun cfg r.g l

theorem run_calm {cfg : GmmCfg} (s : Service) (l : List GmmIn) :
    ∀ (g g' : Gmme) (t : List GmmObs) (w : Bool), Pending s w g → OnlyWhile s w g → CalmRun cfg g l →
      gmmRun cfg g l = .ok (g', t) →
      ∃ w', answered w (marksOf s t) = some w' ∧ Pending s w' g' ∧ OnlyWhile s w' g' := by
  induction l with
  | nil =>
    intro g g' t w hj ho _ h
    obtain ⟨rfl, rfl⟩ := gmmRun_nil h
    exact ⟨w, rfl, hj, ho⟩
  | cons i l ih =>
    intro g g' t w hj ho hc h
    obtain ⟨r, t', h1, h2, rfl⟩ := gmmRun_cons h
    obtain ⟨w1, a, b, c⟩ := step_told s hj h1
    obtain ⟨w2, d, e, f⟩ := ih r.g g' t' w1 b (c hc.1 ho) (hc.2 r h1) h2
    refine ⟨w2, ?_, e, f⟩
    rw [marksOf, answered_append]
    dsimp only
    rw [a]
    exact d

/-- C87, what holds: when all primitives are accepted, no detach is requested while the attach procedure
runs and the IMSI is known if it is to be sent, every request is answered, and by one confirmation: an
answer is owed exactly while the attach procedure runs for the service. -/
theorem c87_answered_partial {cfg : GmmCfg} (enabled : Bool) (ptmsi rnd : Nat) (imsi : List Nat)
    (l : List GmmIn) (hl : CalmRun cfg (gmmeAlloc enabled ptmsi imsi rnd) l) {g : Gmme} {t : List GmmObs}
    (h : gmmRun cfg (gmmeAlloc enabled ptmsi imsi rnd) l = .ok (g, t)) (s : Service) :
    ∃ w, answered false (marksOf s t) = some w ∧ (w = true ↔ g.st = .regInit ∧ flag s g = true) := by
  obtain ⟨w, a, b, c⟩ := run_calm s l _ g t false (fun _ h => by cases s <;> cases h)
    (fun h => by cases h) hl h
  exact ⟨w, a, c, fun ⟨h1, h2⟩ => b (Or.inr h1) h2⟩

/-- A calm history with both services. -/
example : ∃ l : List GmmIn, CalmRun defaultCfg ms0 l ∧
    marksOf .attach (traceOf (gmmRun defaultCfg ms0 l)) = [.asked, .told true] ∧
    marksOf .establish (traceOf (gmmRun defaultCfg ms0 l)) = [.asked, .told true] := by
  refine ⟨[⟨.establishReq 7 prm0, yes⟩, ⟨.attachReq prm0, yes⟩, ⟨.rx attAccMsg, yes⟩], ?_, by decide +kernel,
    by decide +kernel⟩
  refine ⟨⟨fun _ => rfl, fun _ _ _ h => (by cases h), fun _ h => (by cases h), ?_⟩, ?_⟩
  · intro _ p h hp; injection h with _ h; subst h; exact absurd hp (by decide)
  intro r hr
  injection hr with hr; subst hr
  refine ⟨⟨fun _ => rfl, fun _ _ _ h => (by cases h), ?_, fun _ _ h => (by cases h)⟩, ?_⟩
  · intro p h hp; injection h with h; subst h; exact absurd hp (by decide)
  intro r hr
  refine ⟨⟨fun _ => rfl, fun _ _ _ h => (by cases h), fun _ h => (by cases h), fun _ _ h => (by cases h)⟩, ?_⟩
  intro r hr
  trivial

/-! ## C88 -/

/-- What a confirmation says is true of the mobile station: accepted means registered, with the identities
in force; not accepted means not registered. -/
def Truthful (g : Gmme) : GmmOut → Prop
  | .attachAcc p s tl ra => g.st = .reg ∧ p = g.ptmsi ∧ s = g.ptmsiSig ∧ tl = g.tlli ∧ ra = g.ra
  | .attachRej _ => g.st = .dereg
  | .estAcc se p s tl ra =>
    g.st = .reg ∧ se = g.sess ∧ p = g.ptmsi ∧ s = g.ptmsiSig ∧ tl = g.tlli ∧ ra = g.ra
  | .estRej se _ => g.st = .dereg ∧ se = g.sess
  | _ => True

/-- GMMSM-ESTABLISH.cnf with `accepted` set. -/
def IsEstAcc : GmmOut → Prop
  | .estAcc .. => True
  | _ => False

/-- C88: a confirmation says accepted exactly when the mobile station is registered then, and carries the
identities in force. -/
def C88Statement : Prop :=
  ∀ cfg g t, GmmReach cfg g t → ∀ ok ev r, gmmStep cfg ok g ev = .ok r → ∀ o ∈ r.out, Truthful r.g o

/-- An attach rejected with cause 0 is confirmed to session management as accepted. -/
theorem c88_violated : ¬ C88Statement := by
  intro h
  have h0 := reach0 (l := [⟨.establishReq 7 prm0, yes⟩]) (by decide +kernel)
  have := h _ _ _ h0 yes (.rx [0x08, 0x04, 0x00]) _ rfl (.estAcc 7 0 0 0 zeroRa) (by decide +kernel)
  exact absurd this.1 (by decide +kernel)

theorem truthful_noCnf {g : Gmme} {o : GmmOut} (h : NoCnf o) : Truthful g o := by
  cases o <;> first | trivial | exact absurd h (by simp [NoCnf])

theorem toDereg_noCnf {g : Gmme} {o : GmmOut} (h : o ∈ (toDereg g).2) : NoCnf o := by
  unfold toDereg at h
  dsimp only at h
  split at h
  · rw [List.mem_singleton] at h; subst h; trivial
  · cases h

theorem txAttReq_noCnf {cfg : GmmCfg} {g : Gmme} {o : GmmOut} (h : o ∈ (txAttReq cfg g).toList) :
    NoCnf o := by
  unfold txAttReq at h
  split at h
  · rw [Option.toList, List.mem_singleton] at h; subst h; trivial
  · cases h

theorem attachFailed_truth {ok : GmmOut → Bool} {g : Gmme} {c : Nat} {o : GmmOut}
    (h : o ∈ (attachFailed ok g c).2) (hc : c ≠ 0 ∨ ¬ IsEstAcc o) :
    Truthful (attachFailed ok g c).1 o := by
  unfold attachFailed at h
  dsimp only at h
  rcases List.mem_append.1 h with h | h
  · exact truthful_noCnf (toDereg_noCnf h)
  · rcases List.mem_append.1 (submit_sub h) with h | h <;> split at h
    · rw [List.mem_singleton] at h; subst h; exact rfl
    · cases h
    · rw [List.mem_singleton] at h; subst h
      rcases hc with hc | hc
      · unfold estRejOut; rw [if_neg hc]; exact ⟨rfl, rfl⟩
      · unfold estRejOut at hc ⊢
        split at hc
        · exact absurd trivial hc
        · rename_i h0; rw [if_neg h0]; exact ⟨rfl, rfl⟩
    · cases h

theorem attachDone_truth {ok : GmmOut → Bool} {g : Gmme} {o : GmmOut} (h : o ∈ (attachDone ok g).2) :
    Truthful (attachDone ok g).1 o := by
  unfold attachDone at h
  dsimp only at h
  rcases List.mem_append.1 (submit_sub h) with h | h <;> split at h
  · rw [List.mem_singleton] at h; subst h; exact ⟨rfl, rfl, rfl, rfl, rfl⟩
  · cases h
  · rw [List.mem_singleton] at h; subst h; exact ⟨rfl, rfl, rfl, rfl, rfl, rfl⟩
  · cases h

theorem fsm_truth {cfg : GmmCfg} {ok : GmmOut → Bool} {g : Gmme} {fe : FsmEv} {x : Gmme × List GmmOut}
    {o : GmmOut} (h : gmmFsm cfg ok g fe = some x) (hc : fe ≠ .attachRejected 0 ∨ ¬ IsEstAcc o) (ho : o ∈ x.2) :
    Truthful x.1 o := by
  unfold gmmFsm at h
  split at h <;> first | cases h | (injection h with h; subst h)
  all_goals first
    | exact truthful_noCnf (toDereg_noCnf ho)
    | exact truthful_noCnf (txAttReq_noCnf ho)
    | exact attachDone_truth ho
    | exact absurd ho (by simp)
    | skip
  · unfold startAttach at ho
    split at ho
    · cases ho
    · rename_i o' h
      have h' : o' ∈ (txAttReq cfg g).toList := by rw [h]; exact List.mem_singleton.2 rfl
      rw [List.mem_singleton] at ho; subst ho
      exact truthful_noCnf (txAttReq_noCnf h')
  · refine attachFailed_truth ho ?_
    rcases hc with hc | hc
    · exact Or.inl fun e => hc (by rw [e])
    · exact Or.inr hc
  · exact attachFailed_truth ho (Or.inl (by decide))
  · simp only [startRau, List.mem_cons, List.not_mem_nil, or_false] at ho
    rcases ho with rfl | rfl <;> exact truthful_noCnf trivial
  · unfold rauRejectedAct at ho
    split at ho
    · cases ho
    · exact truthful_noCnf (toDereg_noCnf ho)
  · simp only [rauDone, List.mem_cons, List.not_mem_nil, or_false] at ho
    subst ho
    exact truthful_noCnf trivial

theorem dispatch_truth {cfg : GmmCfg} {ok : GmmOut → Bool} {g : Gmme} {pre : List GmmOut} {fe : FsmEv}
    {o : GmmOut} (hc : fe ≠ .attachRejected 0 ∨ ¬ IsEstAcc o) (hp : ∀ o ∈ pre, Plain o)
    (ho : o ∈ (dispatch cfg ok g pre fe).out) : Truthful (dispatch cfg ok g pre fe).g o := by
  unfold dispatch at ho ⊢
  split
  · rename_i g' out h
    rw [h] at ho
    rcases List.mem_append.1 ho with ho | ho
    · exact truthful_noCnf (noCnf_plain (hp o ho))
    · exact fsm_truth h hc ho
  · rename_i h
    rw [h] at ho
    exact truthful_noCnf (noCnf_plain (hp o ho))

/-- C88, what holds: every confirmation is truthful, except GMMSM-ESTABLISH.cnf after an ATTACH REJECT
whose cause is 0. -/
theorem c88_truthful_partial {cfg : GmmCfg} {ok : GmmOut → Bool} {g : Gmme} {ev : GmmEv} {r : GmmStep}
    {o : GmmOut} (h : gmmStep cfg ok g ev = .ok r) (ho : o ∈ r.out)
    (hx : ¬ IsEstAcc o ∨ ¬ ∃ b, ev = .rx b ∧ rd b 1 = .ok 0x04 ∧ rd b 2 = .ok 0x00) : Truthful r.g o := by
  have quiet : ∀ {l : List GmmOut}, (∀ o ∈ l, Plain o) → o ∈ l → Truthful r.g o :=
    fun h1 h2 => truthful_noCnf (noCnf_plain (h1 o h2))
  have nil := plain_nil
  cases ev with
  | enable on =>
    injection h with h; subst h
    exact dispatch_truth (Or.inl (by split <;> (intro h; cases h))) nil ho
  | attachReq p =>
    injection h with h; subst h
    exact dispatch_truth (Or.inl (by intro h; cases h)) nil ho
  | detachReq t p =>
    injection h with h; subst h
    unfold detachReqAct submitOne at ho ⊢
    rcases List.mem_append.1 ho with ho | ho
    · exact dispatch_truth (Or.inl (by split <;> (intro h; cases h))) nil ho
    · rw [List.mem_singleton] at ho; subst ho; trivial
  | simAuthRsp a k rnd s kc =>
    injection h with h; subst h
    unfold simAuthRspAct at ho
    split at ho
    · exact quiet authFinish_plain ho
    · cases ho
  | establishReq s p =>
    injection h with h; subst h
    unfold establishReqAct at ho ⊢
    dsimp only at ho ⊢
    split
    · rename_i hs
      rw [if_pos hs] at ho
      rw [submitOne, List.nil_append, List.mem_singleton] at ho; subst ho
      exact ⟨hs, rfl, rfl, rfl, rfl, rfl⟩
    · rename_i hs
      rw [if_neg hs] at ho
      exact dispatch_truth (Or.inl (by intro h; cases h)) nil ho
  | smUnitdataReq b =>
    injection h with h; subst h
    rw [submitOne, List.nil_append, List.mem_singleton] at ho; subst ho; trivial
  | pageInd =>
    injection h with h; subst h
    rw [submitOne, List.nil_append, List.mem_singleton] at ho; subst ho; trivial
  | llcTransmitted => injection h with h; subst h; cases ho
  | rx b =>
    cases rx_shape h with
    | quiet _ h1 => exact quiet h1 ho
    | event g1 pre fe hs h1 hf hg hr =>
      rw [hg]
      rw [hr] at ho
      refine dispatch_truth ?_ h1 ho
      rcases hx with hx | hx
      · exact Or.inr hx
      · refine Or.inl fun e => ?_
        subst e
        rcases hf with hf | hf
        · exact hx ⟨b, rfl, hf⟩
        · cases hf.2
  | fsmTimer =>
    injection h with h; subst h
    clear quiet hx
    revert ho
    unfold fsmTimeout
    split
    · split
      · exact dispatch_truth (Or.inl (by intro h; cases h)) nil
      · exact fun ho => truthful_noCnf (txAttReq_noCnf ho)
    · split
      · exact dispatch_truth (Or.inl (by intro h; cases h)) nil
      · intro ho
        rw [List.mem_singleton] at ho; subst ho; trivial
    · exact fun ho => absurd ho List.not_mem_nil
  | t3314 => injection h with h; subst h; cases ho
  | t3312 =>
    injection h with h; subst h
    unfold periodicUpdate at ho ⊢
    split
    · rename_i hr
      rw [if_pos hr] at ho
      exact dispatch_truth (Or.inl (by intro h; cases h)) nil ho
    · rename_i hr
      rw [if_neg hr] at ho
      cases ho
  | t3316 => injection h with h; subst h; cases ho

/-- Both kinds of confirmation occur. -/
example : ∃ r, gmmStep defaultCfg yes (finalOf (gmmRun defaultCfg ms0 [⟨.establishReq 7 prm0, yes⟩,
      ⟨.attachReq prm0, yes⟩])) (.rx attAccMsg) = .ok r ∧
    (.attachAcc 0xea711b41 reservedTmsi 0xea711b41 [0x32, 0xf4, 0x07, 0x00, 0x05, 0x00]) ∈ r.out ∧
    (.estAcc 7 0xea711b41 reservedTmsi 0xea711b41 [0x32, 0xf4, 0x07, 0x00, 0x05, 0x00]) ∈ r.out :=
  ⟨_, rfl, by decide +kernel, by decide +kernel⟩

end Verif.Props
