import Verif.Rlc.LlcQueueLemmas

/-!
# C24, C25, C62: the LLC queue
-/
namespace Verif.Props

open Verif.Spec Verif.Rlc

/-- **C24**, conservation: in every history of enqueue, dequeue, countdown, release of the TBF and clear, with or
without CoDel, and for every class, what came out together with what is waiting is what was handed in since the
queue was last cleared: nothing is lost, nothing is duplicated.  The counters of both queues are those of their
content. -/
theorem c24_conserved (useCodel : Bool) (ms : Int) (es : List QEv) (s : UlQueues) (l : QLog)
    (h : qrun es (UlQueues.init useCodel ms, QLog.init) = .ok (s, l)) :
    (∀ c, (l.delivered c ++ waiting s c).Perm (l.accepted c)) ∧ CountersRight s.gre ∧
    (∀ q, s.frozen = some q → CountersRight q) := by
  have hi := qrun_inv (qinv_init useCodel ms) h
  exact ⟨hi.log, hi.gre.counters, fun q hq => (hi.frozen q hq).counters⟩

/-- **C24**, priority: in every reachable state, a dequeue hands out the oldest frame of its class in the queue
being served (the frozen one once the countdown procedure is active), no frame of a higher class is waiting in that
queue, and it hands out nothing only if that queue is empty. -/
theorem c24_priority (useCodel : Bool) (ms : Int) (es : List QEv) (s s' : UlQueues) (l : QLog)
    (h : qrun es (UlQueues.init useCodel ms, QLog.init) = .ok (s, l)) (now : Int) (out : Option (Octets × Nat))
    (hd : s.step (.deq now) = .ok (s', out)) :
    (∀ d c, out = some (d, c) → (inQueue (serving s) c).head? = some d ∧ ∀ k, k < c → inQueue (serving s) k = []) ∧
    (out = none → ∀ k, inQueue (serving s) k = []) := by
  have hi := qrun_inv (qinv_init useCodel ms) h
  have key : ∀ q q' cd o, QOk q → q.dequeue now cd = .ok (q', o) →
      (∀ d c, o = some (d, c) → (inQueue q c).head? = some d ∧ ∀ k, k < c → inQueue q k = []) ∧
      (o = none → ∀ k, inQueue q k = []) := by
    intro q q' cd o hq hx
    obtain ⟨_, hout⟩ := dequeue_ok hq hx
    cases o with
    | none => exact ⟨nofun, fun _ => hout.2⟩
    | some dc =>
      obtain ⟨d, c⟩ := dc
      obtain ⟨_, ⟨fs, e⟩, hlow, _⟩ := hout
      refine ⟨fun d' c' hx => ?_, nofun⟩
      cases hx
      exact ⟨by rw [e]; rfl, hlow⟩
  unfold UlQueues.step at hd
  unfold serving
  cases hf : s.frozen with
  | some old =>
    rw [hf] at hd
    simp only at hd
    cases hx : old.dequeue now false with
    | err e => rw [hx] at hd; cases hd
    | ub f => rw [hx] at hd; cases hd
    | ok r =>
      rw [hx] at hd
      simp only [Res.bind_ok] at hd
      injection hd with hd
      injection hd with _ hd
      rw [← hd]
      exact key old r.1 false r.2 (hi.frozen old hf) hx
  | none =>
    rw [hf] at hd
    simp only at hd
    cases hx : s.gre.dequeue now true with
    | err e => rw [hx] at hd; cases hd
    | ub f => rw [hx] at hd; cases hd
    | ok r =>
      rw [hx] at hd
      simp only [Res.bind_ok] at hd
      injection hd with hd
      injection hd with _ hd
      rw [← hd]
      exact key s.gre r.1 true r.2 hi.gre hx

/-- **C24**, order, the full statement: frames of one class come out in the order they were handed in. -/
def C24Statement : Prop :=
  ∀ (useCodel : Bool) (ms : Int) (es : List QEv) (s : UlQueues) (l : QLog),
    qrun es (UlQueues.init useCodel ms, QLog.init) = .ok (s, l) →
    ∀ c, l.delivered c ++ waiting s c = l.accepted c

theorem fifo_step {es : List QEv} {s s' : UlQueues} {l l' : QLog} (h : QInv s l) (hg : GentleMerges es s)
    (hr : qrun es (s, l) = .ok (s', l')) (ho : ∀ c, l.delivered c ++ waiting s c = l.accepted c) :
    ∀ c, l'.delivered c ++ waiting s' c = l'.accepted c := by
  induction es generalizing s l with
  | nil => cases hr; exact ho
  | cons e es ih =>
    unfold qrun at hr
    unfold GentleMerges at hg
    cases hx : s.step e with
    | err _ => rw [hx] at hr; cases hr
    | ub _ => rw [hx] at hr; cases hr
    | ok r =>
      obtain ⟨s1, out⟩ := r
      rw [hx] at hr hg
      have hinv := step_inv hx h
      refine ih hinv hg.2 hr fun c => ?_
      cases e with
      | enq data sapi prio now =>
        obtain ⟨_, _, hw⟩ := enq_log hx h
        rw [hw]
        show l.delivered c ++ _ = if c = classOf sapi prio then l.accepted c ++ [data] else l.accepted c
        split
        · rw [← List.append_assoc, ho]
        · exact ho c
      | deq now =>
        obtain ⟨_, ha, hw⟩ := deq_log hx h
        rw [hw, ha]
        exact ho c
      | countdown =>
        rw [(countdown_log hx h).2]
        exact ho c
      | tbfFreed =>
        have hlen := hg.1 rfl c
        cases hx
        rw [(waiting_release h c).1]
        show l.delivered c ++ _ = l.accepted c
        rw [← ho c]
        unfold waiting
        have : (inFrozen s c).reverse = inFrozen s c := by
          match hl : inFrozen s c, hlen with
          | [], _ => rfl
          | [x], _ => rfl
          | x :: y :: z, hlen => simp at hlen
        rw [this]
      | clear =>
        have hp := hinv.log c
        show ([] : List Octets) ++ waiting s1 c = []
        have : (([] : List Octets) ++ waiting s1 c).Perm [] := hp
        exact List.perm_nil.1 this

/-- **C24**, order, proved part: the frames of each class come out in the order they were handed in, if no more than
one frame of a class is frozen whenever a TBF is freed.  Missing: histories in which a TBF is freed during its
countdown with several frames of one class left, for which the statement is false. -/
theorem c24_fifo_partial (useCodel : Bool) (ms : Int) (es : List QEv) (s : UlQueues) (l : QLog)
    (h : qrun es (UlQueues.init useCodel ms, QLog.init) = .ok (s, l))
    (hg : GentleMerges es (UlQueues.init useCodel ms)) (c : Nat) :
    l.delivered c ++ waiting s c = l.accepted c := by
  refine fifo_step (qinv_init useCodel ms) hg h (fun c => ?_) c
  show [] ++ ([] ++ inQueue (LlcQ.alloc.setCodel useCodel ms) c) = []
  rw [inQueue_setCodel]
  rfl

/-- A boolean test of the outcome of a history (for closed examples). -/
def qtest (es : List QEv) (u : Bool) (p : UlQueues → QLog → Bool) : Bool :=
  match qrun es (UlQueues.init u 100, QLog.init) with
  | .ok (s, l) => p s l
  | _ => false

/-- Not vacuous: a GMM frame overtakes user data of the same radio priority, a second one of user data is sent
after the first. -/
example : qtest [.enq [1] 3 2 0, .enq [2, 2] 3 2 5, .enq [9] 1 2 6, .deq 7, .countdown, .enq [4] 3 2 8, .deq 9,
    .tbfFreed, .deq 11] false
    (fun s l => l.delivered 3 == [[9]] && l.delivered 5 == [[1], [2, 2]] && waiting s 5 == [[4]]
      && s.gre.size == 1 && s.gre.octets == 1) = true := by decide +kernel

example : GentleMerges [.enq [1] 3 2 0, .enq [9] 1 2 6, .countdown, .enq [4] 3 2 8, .deq 9, .tbfFreed, .deq 11]
    (UlQueues.init false 100) := by
  unfold GentleMerges
  refine ⟨nofun, nofun, nofun, nofun, nofun, ⟨fun _ c => ?_, nofun, trivial⟩⟩
  simp [UlQueues.init, LlcQ.setCodel, LlcQ.alloc, LlcQ.enqueue, trimRadioPrio, sapi2prio, LlcQ.setPq, inFrozen,
    inQueue, LlcQ.codelDecision, sizeSub]
  split
  · simp
  · split <;> simp

/-- **C24** is false of the code as far as order goes: two frames of one class are waiting when the countdown starts,
the TBF is freed (say by T3180 or by too many unacknowledged blocks), and the second frame is sent before the
first. -/
theorem c24_fifo_violated : ¬ C24Statement := by
  intro h
  have hs := h false 100 [.enq [1] 3 1 0, .enq [2] 3 1 0, .countdown, .tbfFreed]
    _ _ rfl 2
  revert hs
  decide +kernel

/-- The consequence on the air. -/
example : qtest [.enq [1] 3 1 0, .enq [2] 3 1 0, .countdown, .tbfFreed, .deq 5, .deq 6] false
    (fun _ l => l.accepted 2 == [[1], [2]] && l.delivered 2 == [[2], [1]]) = true := by decide +kernel

/-! ## C25 -/

/-- **C25**, the full statement: no history of non-empty frames makes a dequeue work on a freed frame (or misbehave
in any other way), whether CoDel is used or not. -/
def C25Statement : Prop :=
  ∀ (useCodel : Bool) (ms : Int) (es : List QEv), (∀ e ∈ es, NonEmpty e) →
    (qrun es (UlQueues.init useCodel ms, QLog.init)).Safe

theorem nodata_step {l : QLog} {e : QEv} {out : Option (Octets × Nat)} (he : NonEmpty e)
    (h : ∀ c, [] ∉ l.accepted c) : ∀ c, [] ∉ (l.note e out).accepted c := by
  intro c
  cases e with
  | enq data sapi prio now =>
    show [] ∉ (if c = classOf sapi prio then l.accepted c ++ [data] else l.accepted c)
    split
    · intro hm
      rcases List.mem_append.1 hm with hm | hm
      · exact h c hm
      · exact he (List.mem_singleton.1 hm).symm
    · exact h c
  | deq now => cases out <;> exact h c
  | countdown => exact h c
  | tbfFreed => exact h c
  | clear => exact List.not_mem_nil

/-- A dequeue of a queue without empty frames fails only where CoDel drops. -/
theorem dequeue_cases {q : LlcQ} (hq : ∀ c, [] ∉ inQueue q c) (now : Int) (cd : Bool) :
    (∃ r, q.dequeue now cd = .ok r) ∨
    (q.dequeue now cd = .ub .useAfterFree ∧ cd = true ∧ q.useCodel = true) := by
  unfold LlcQ.dequeue LlcQ.pickMsg
  cases hf : q.findMsg with
  | none => exact Or.inl ⟨_, rfl⟩
  | some c =>
    simp only
    cases hfr : (q.pq c).frames with
    | nil => exact Or.inl ⟨_, rfl⟩
    | cons f fs =>
      have : f.data ≠ [] := by
        intro he
        refine hq c ?_
        simp [inQueue, hfr, he]
      simp only [this, if_false, Res.bind_ok]
      split
      · rename_i hd
        refine Or.inr ⟨rfl, ?_⟩
        unfold LlcQ.codelDecision at hd
        split at hd
        · rename_i hc
          simpa using hc
        · cases hd
      · exact Or.inl ⟨_, rfl⟩

theorem dequeue_useCodel {q q' : LlcQ} {now : Int} {cd : Bool} {o : Option (Octets × Nat)}
    (h : q.dequeue now cd = .ok (q', o)) : q'.useCodel = q.useCodel := by
  unfold LlcQ.dequeue LlcQ.pickMsg at h
  cases hf : q.findMsg with
  | none => rw [hf] at h; cases h; rfl
  | some c =>
    rw [hf] at h
    simp only at h
    cases hfr : (q.pq c).frames with
    | nil => rw [hfr] at h; cases h; rfl
    | cons f fs =>
      rw [hfr] at h
      simp only at h
      split at h
      · cases h
      · simp only [Res.bind_ok] at h
        split at h
        · cases h
        · injection h with h
          injection h with h _
          rw [← h]
          exact (inQueue_codelDecision _ f c now cd).2.2.2

theorem codelOff_step {s s' : UlQueues} {e : QEv} {o : Option (Octets × Nat)} (h : s.step e = .ok (s', o))
    (h1 : s.gre.useCodel = false) (h2 : ∀ q, s.frozen = some q → q.useCodel = false) :
    s'.gre.useCodel = false ∧ ∀ q, s'.frozen = some q → q.useCodel = false := by
  have hrel : s.release.gre.useCodel = false ∧ s.release.frozen = none := by
    unfold UlQueues.release
    cases hf : s.frozen with
    | none => exact ⟨h1, hf⟩
    | some old =>
      refine ⟨?_, rfl⟩
      simp only [LlcQ.mergePrepend]
      split <;> exact h1
  unfold UlQueues.step at h
  cases e with
  | enq data sapi prio now =>
    cases h
    exact ⟨h1, h2⟩
  | deq now =>
    simp only at h
    cases hf : s.frozen with
    | some old =>
      rw [hf] at h
      simp only at h
      cases hx : old.dequeue now false with
      | err e => rw [hx] at h; cases h
      | ub f => rw [hx] at h; cases h
      | ok r =>
        rw [hx] at h
        cases h
        exact ⟨h1, fun q hq => by injection hq with hq; rw [← hq, dequeue_useCodel hx]; exact h2 old hf⟩
    | none =>
      rw [hf] at h
      simp only at h
      cases hx : s.gre.dequeue now true with
      | err e => rw [hx] at h; cases h
      | ub f => rw [hx] at h; cases h
      | ok r =>
        rw [hx] at h
        cases h
        exact ⟨(dequeue_useCodel hx).trans h1, nofun⟩
  | countdown =>
    simp only at h
    cases hf : s.frozen with
    | some old => rw [hf] at h; cases h; exact ⟨h1, h2⟩
    | none => rw [hf] at h; cases h; exact ⟨rfl, fun q hq => by injection hq with hq; rw [← hq]; exact h1⟩
  | tbfFreed =>
    cases h
    exact ⟨hrel.1, fun q hq => by rw [hrel.2] at hq; cases hq⟩
  | clear =>
    cases h
    exact ⟨hrel.1, fun q hq => by simp [hrel.2] at hq⟩

/-- The step of the induction below: one event fails only by a CoDel drop. -/
theorem step_cases {s : UlQueues} {l : QLog} (hi : QInv s l) (hd : ∀ c, [] ∉ l.accepted c) (e : QEv) :
    (∃ r, s.step e = .ok r) ∨ (s.step e = .ub .useAfterFree ∧ s.frozen = none ∧ s.gre.useCodel = true) := by
  have hw : ∀ c, [] ∉ inFrozen s c ∧ [] ∉ inQueue s.gre c := by
    intro c
    have := hd c
    have hm := (hi.log c).mem_iff (a := ([] : Octets))
    constructor
    · intro hx
      exact this (hm.1 (by simp [waiting, hx]))
    · intro hx
      exact this (hm.1 (by simp [waiting, hx]))
  unfold UlQueues.step
  cases e with
  | enq data sapi prio now => exact Or.inl ⟨_, rfl⟩
  | deq now =>
    simp only
    cases hf : s.frozen with
    | some old =>
      simp only
      have : ∀ c, [] ∉ inQueue old c := by
        intro c
        have := (hw c).1
        unfold inFrozen at this
        rw [hf] at this
        exact this
      rcases dequeue_cases this now false with ⟨r, hr⟩ | ⟨_, hr, _⟩
      · rw [hr]; exact Or.inl ⟨_, rfl⟩
      · cases hr
    | none =>
      simp only
      rcases dequeue_cases (fun c => (hw c).2) now true with ⟨r, hr⟩ | ⟨hr, _, hu⟩
      · rw [hr]; exact Or.inl ⟨_, rfl⟩
      · rw [hr]; exact Or.inr ⟨rfl, trivial, hu⟩
  | countdown =>
    simp only
    cases s.frozen <;> exact Or.inl ⟨_, rfl⟩
  | tbfFreed => exact Or.inl ⟨_, rfl⟩
  | clear => exact Or.inl ⟨_, rfl⟩

/-- **C25**, proved part: without CoDel, no history of non-empty frames makes the queue misbehave.  Missing: with
CoDel in use, for which the statement is false. -/
theorem c25_dequeue_safe_partial (ms : Int) (es : List QEv) (hne : ∀ e ∈ es, NonEmpty e) :
    (qrun es (UlQueues.init false ms, QLog.init)).Safe := by
  have key : ∀ (es : List QEv) (s : UlQueues) (l : QLog), QInv s l → (∀ c, [] ∉ l.accepted c) →
      s.gre.useCodel = false → (∀ q, s.frozen = some q → q.useCodel = false) → (∀ e ∈ es, NonEmpty e) →
      (qrun es (s, l)).Safe := by
    intro es
    induction es with
    | nil => intro s l _ _ _ _ _; exact Res.safe_ok _
    | cons e es ih =>
      intro s l hi hd h1 h2 hne
      unfold qrun
      rcases step_cases hi hd e with ⟨r, hr⟩ | ⟨_, _, hu⟩
      · rw [hr]
        simp only
        obtain ⟨k1, k2⟩ := codelOff_step hr h1 h2
        exact ih r.1 _ (step_inv hr hi) (nodata_step (hne e (by simp)) hd) k1 k2 fun x hx => hne x (by simp [hx])
      · rw [h1] at hu; cases hu
  exact key es _ _ (qinv_init false ms) (fun _ => List.not_mem_nil) rfl nofun hne

/-- **C25**, whatever the configuration: the only misbehaviour is a use of a dropped frame, on a dequeue outside of
the countdown procedure with CoDel in use. -/
theorem c25_only_codel_drops_fail (useCodel : Bool) (ms : Int) (es : List QEv) (hne : ∀ e ∈ es, NonEmpty e) (f : Fault)
    (h : qrun es (UlQueues.init useCodel ms, QLog.init) = .ub f) : f = .useAfterFree ∧ useCodel = true := by
  constructor
  · have key : ∀ (es : List QEv) (s : UlQueues) (l : QLog), QInv s l → (∀ c, [] ∉ l.accepted c) →
        (∀ e ∈ es, NonEmpty e) → qrun es (s, l) = .ub f → f = .useAfterFree := by
      intro es
      induction es with
      | nil => intro s l _ _ _ hx; cases hx
      | cons e es ih =>
        intro s l hi hd hne hx
        unfold qrun at hx
        rcases step_cases hi hd e with ⟨r, hr⟩ | ⟨hr, _, _⟩
        · rw [hr] at hx
          exact ih r.1 _ (step_inv hr hi) (nodata_step (hne e (by simp)) hd) (fun x hx => hne x (by simp [hx])) hx
        · rw [hr] at hx
          cases hx; rfl
    exact key es _ _ (qinv_init useCodel ms) (fun _ => List.not_mem_nil) hne h
  · cases useCodel with
    | true => rfl
    | false => exact absurd h (c25_dequeue_safe_partial ms es hne f)

/-- Four large frames that wait for seconds (for the witness). -/
def codelWitness : List QEv :=
  let big : Octets := List.replicate 600 7
  [.enq big 3 1 1000000000, .enq big 3 1 1000000000, .enq big 3 1 1000000000, .enq big 3 1 1000000000,
   .deq 2000000000, .deq 3000000000]

/-- **C25** is false of the code: the second frame taken out more than an interval later is dropped by CoDel, and the
freed frame is handed out. -/
theorem c25_dequeue_safe_violated : ¬ C25Statement := by
  intro h
  have hs := h true 100 codelWitness (by
    intro e he
    simp only [codelWitness, List.mem_cons, List.not_mem_nil, or_false] at he
    rcases he with rfl | rfl | rfl | rfl | rfl | rfl
    · exact List.replicate_succ ▸ List.cons_ne_nil _ _
    · exact List.replicate_succ ▸ List.cons_ne_nil _ _
    · exact List.replicate_succ ▸ List.cons_ne_nil _ _
    · exact List.replicate_succ ▸ List.cons_ne_nil _ _
    · trivial
    · trivial)
  have hx : (match qrun codelWitness (UlQueues.init true 100, QLog.init) with
    | .ub .useAfterFree => true
    | _ => false) = true := by decide +kernel
  revert hs hx
  cases qrun codelWitness (UlQueues.init true 100, QLog.init) with
  | ok _ => intro _ hx; cases hx
  | err _ => intro _ hx; cases hx
  | ub f => intro hs _; exact hs f rfl

/-! ## C62: empty LL-PDUs -/

/-- **C62**, the full statement: no sequence of GRR-UNITDATA requests, empty or not, makes the queue misbehave. -/
def C62Statement : Prop :=
  ∀ (ms : Int) (es : List QEv), (qrun es (UlQueues.init false ms, QLog.init)).Safe

/-- **C62** is false of the code: an empty LL-PDU is accepted, and taking it out of the queue works on a null
pointer.  (For non-empty ones it is `c25_dequeue_safe_partial`.) -/
theorem c62_empty_pdu_violated : ¬ C62Statement := by
  intro h
  have hs := h 100 [.enq [] 3 1 0, .deq 1]
  have hx : (match qrun [.enq [] 3 1 0, .deq 1] (UlQueues.init false 100, QLog.init) with
    | .ub .outOfBounds => true
    | _ => false) = true := by decide +kernel
  revert hs hx
  cases qrun [.enq [] 3 1 0, .deq 1] (UlQueues.init false 100, QLog.init) with
  | ok _ => intro _ hx; cases hx
  | err _ => intro _ hx; cases hx
  | ub f => intro hs _; exact hs f rfl

/-! ## C63: queue management stays as configured -/

/-- **C63**, the full statement: a configured CoDel is in force for every queue frames are taken from outside of the
countdown procedure. -/
def C63Statement : Prop :=
  ∀ (useCodel : Bool) (ms : Int) (es : List QEv) (s : UlQueues) (l : QLog),
    qrun es (UlQueues.init useCodel ms, QLog.init) = .ok (s, l) → s.gre.useCodel = useCodel

/-- **C63**, proved part: before the first countdown procedure.  Missing: afterwards, when it is false. -/
theorem c63_codel_stays_partial (useCodel : Bool) (ms : Int) (es : List QEv) (s : UlQueues) (l : QLog)
    (hn : QEv.countdown ∉ es) (h : qrun es (UlQueues.init useCodel ms, QLog.init) = .ok (s, l)) :
    s.gre.useCodel = useCodel := by
  have key : ∀ (es : List QEv) (s0 : UlQueues) (l0 : QLog), QEv.countdown ∉ es → s0.gre.useCodel = useCodel →
      s0.frozen = none → qrun es (s0, l0) = .ok (s, l) → s.gre.useCodel = useCodel := by
    intro es
    induction es with
    | nil => intro s0 l0 _ h1 _ hr; cases hr; exact h1
    | cons e es ih =>
      intro s0 l0 hn h1 h2 hr
      unfold qrun at hr
      have hn' : QEv.countdown ∉ es := fun hm => hn (by simp [hm])
      cases hx : s0.step e with
      | err _ => rw [hx] at hr; cases hr
      | ub _ => rw [hx] at hr; cases hr
      | ok r =>
        obtain ⟨s1, out⟩ := r
        rw [hx] at hr
        have : s1.gre.useCodel = useCodel ∧ s1.frozen = none := by
          unfold UlQueues.step at hx
          cases e with
          | enq data sapi prio now => cases hx; exact ⟨h1, h2⟩
          | deq now =>
            simp only [h2] at hx
            cases hy : s0.gre.dequeue now true with
            | err e => rw [hy] at hx; cases hx
            | ub f => rw [hy] at hx; cases hx
            | ok r =>
              rw [hy] at hx
              cases hx
              exact ⟨(dequeue_useCodel hy).trans h1, rfl⟩
          | countdown => exact absurd (by simp) hn
          | tbfFreed => simp only [UlQueues.release, h2] at hx; cases hx; exact ⟨h1, h2⟩
          | clear => simp only [UlQueues.release, h2] at hx; cases hx; exact ⟨h1, rfl⟩
        exact ih s1 _ hn' this.1 this.2 hr
  refine key es _ _ hn ?_ rfl h
  cases useCodel <;> rfl

/-- **C63** is false of the code: the queue that replaces the one frozen by the first countdown procedure has CoDel
off, for the rest of the life of the entity. -/
theorem c63_codel_stays_violated : ¬ C63Statement := by
  intro h
  have := h true 100 [.countdown, .tbfFreed] _ _ rfl
  revert this
  decide +kernel

end Verif.Props
