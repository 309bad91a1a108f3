import Verif.Spec.LlcQueue

/-!
# Lemmas about the LLC queue
-/
namespace Verif.Rlc

open Verif.Spec

/-- Changing one summand. -/
theorem sum_update (g : Nat → Nat) (c a n : Nat) (h : c < n) :
    ((List.range n).map fun k => if k = c then a else g k).sum + g c = ((List.range n).map g).sum + a := by
  induction n with
  | zero => omega
  | succ n ih =>
    rw [List.range_succ, List.map_append, List.map_append, List.sum_append, List.sum_append]
    simp only [List.map_cons, List.map_nil, List.sum_cons, List.sum_nil, Nat.add_zero]
    by_cases hc : c = n
    · subst hc
      have : ((List.range c).map fun k => if k = c then a else g k) = (List.range c).map g := by
        apply List.map_congr_left
        intro k hk
        have := List.mem_range.1 hk
        rw [if_neg (by omega)]
      rw [this, if_pos rfl]
      omega
    · have := ih (by omega)
      rw [if_neg (by omega : n ≠ c)]
      omega

theorem le_sum (g : Nat → Nat) (c n : Nat) (h : c < n) : g c ≤ ((List.range n).map g).sum := by
  have := sum_update g c 0 n h
  omega

theorem inQueue_setPq (q : LlcQ) (c : Nat) (fs : List LlcFrame) (sz oc : Nat) (k : Nat) :
    inQueue { q with pq := q.setPq c fs, size := sz, octets := oc } k =
      if k = c then fs.map (·.data) else inQueue q k := by
  unfold inQueue LlcQ.setPq
  simp only
  split <;> rfl

/-- Changing one class in a queue, with the counters going along, keeps the counters right. -/
theorem counters_change {q q' : LlcQ} {c : Nat} {fs : List Octets} (h : CountersRight q) (hc : c < 12)
    (hq : ∀ k, inQueue q' k = if k = c then fs else inQueue q k)
    (h1 : q'.size + (inQueue q c).length = q.size + fs.length)
    (h2 : q'.octets + ((inQueue q c).map List.length).sum = q.octets + (fs.map List.length).sum) :
    CountersRight q' := by
  obtain ⟨e1, e2⟩ := h
  constructor
  · have := sum_update (fun k => (inQueue q k).length) c fs.length 12 hc
    have e : ((List.range 12).map fun k => (inQueue q' k).length) =
        (List.range 12).map fun k => if k = c then fs.length else (inQueue q k).length := by
      apply List.map_congr_left
      intro k _
      rw [hq]
      split <;> rfl
    rw [e]
    omega
  · have := sum_update (fun k => ((inQueue q k).map List.length).sum) c (fs.map List.length).sum 12 hc
    have e : ((List.range 12).map fun k => ((inQueue q' k).map List.length).sum) =
        (List.range 12).map fun k => if k = c then (fs.map List.length).sum else ((inQueue q k).map List.length).sum := by
      apply List.map_congr_left
      intro k _
      rw [hq]
      split <;> rfl
    rw [e]
    omega

/-- What is true of each queue: counters are right, nothing is filed under a class that does not exist. -/
structure QOk (q : LlcQ) : Prop where
  counters : CountersRight q
  classes : ∀ c, 12 ≤ c → inQueue q c = []

theorem qok_alloc : QOk LlcQ.alloc := ⟨by unfold CountersRight; decide, fun _ _ => rfl⟩

theorem inQueue_setCodel (q : LlcQ) (u : Bool) (ms : Int) (c : Nat) : inQueue (q.setCodel u ms) c = inQueue q c := by
  unfold LlcQ.setCodel
  split <;> rfl

theorem qok_init (u : Bool) (ms : Int) : QOk (LlcQ.alloc.setCodel u ms) := by
  refine ⟨?_, fun c _ => inQueue_setCodel _ _ _ _⟩
  cases u
  · exact qok_alloc.counters
  · exact qok_alloc.counters

theorem classOf_eq (sapi prio : Nat) : 3 * trimRadioPrio prio + sapi2prio sapi = classOf sapi prio := by
  have h1 : trimRadioPrio prio = min (max prio 1) 4 - 1 := by
    unfold trimRadioPrio
    split
    · omega
    · split <;> omega
  have h2 : sapi2prio sapi = (if sapi = 1 then 0 else if sapi ∈ [2, 7, 8] then 1 else 2) := by
    unfold sapi2prio
    simp only [List.mem_cons, List.not_mem_nil, or_false]
    repeat' split
    all_goals first | rfl | omega
  unfold classOf
  rw [h1, h2]
  omega

theorem classOf_lt (sapi prio : Nat) : classOf sapi prio < 12 := by
  unfold classOf
  have : (if sapi = 1 then 0 else if sapi ∈ [2, 7, 8] then 1 else 2) ≤ 2 := by
    repeat' split
    all_goals omega
  omega

/-! ## Enqueue -/

theorem inQueue_enqueue (q : LlcQ) (data : Octets) (sapi prio : Nat) (now : Int) (k : Nat) :
    inQueue (q.enqueue data sapi (trimRadioPrio prio) now) k =
      if k = classOf sapi prio then inQueue q (classOf sapi prio) ++ [data] else inQueue q k := by
  unfold LlcQ.enqueue
  rw [inQueue_setPq, classOf_eq]
  split
  · simp [inQueue]
  · rfl

theorem qok_enqueue {q : LlcQ} (h : QOk q) (data : Octets) (sapi prio : Nat) (now : Int) :
    QOk (q.enqueue data sapi (trimRadioPrio prio) now) := by
  have hlt := classOf_lt sapi prio
  constructor
  · refine counters_change h.counters hlt (inQueue_enqueue q data sapi prio now) ?_ ?_
    · simp [LlcQ.enqueue]; omega
    · simp [LlcQ.enqueue]; omega
  · intro c hc
    rw [inQueue_enqueue, if_neg (by omega)]
    exact h.classes c hc

/-! ## Dequeue -/

theorem findMsg_some {q : LlcQ} {c : Nat} (h : q.findMsg = some c) :
    c < 12 ∧ (q.pq c).frames ≠ [] ∧ ∀ k, k < c → inQueue q k = [] := by
  unfold LlcQ.findMsg at h
  rw [List.find?_range_eq_some] at h
  obtain ⟨h1, h2, h3⟩ := h
  refine ⟨List.mem_range.1 h2, by simpa using h1, ?_⟩
  intro k hk
  have := h3 k hk
  simp at this
  simp [inQueue, this]

theorem findMsg_none {q : LlcQ} (h : q.findMsg = none) : ∀ k, k < 12 → inQueue q k = [] := by
  unfold LlcQ.findMsg at h
  rw [List.find?_range_eq_none] at h
  intro k hk
  have := h k hk
  simp at this
  simp [inQueue, this]

theorem inQueue_codelDecision (q : LlcQ) (f : LlcFrame) (c : Nat) (now : Int) (cd : Bool) :
    (∀ k, inQueue (q.codelDecision f c now cd).1 k = inQueue q k) ∧ (q.codelDecision f c now cd).1.size = q.size ∧
      (q.codelDecision f c now cd).1.octets = q.octets ∧ (q.codelDecision f c now cd).1.useCodel = q.useCodel := by
  unfold LlcQ.codelDecision
  split
  · refine ⟨fun k => ?_, rfl, rfl, rfl⟩
    unfold inQueue
    simp only
    split <;> rfl
  · exact ⟨fun _ => rfl, rfl, rfl, rfl⟩

/-- What a dequeue does to the content. -/
def DeqOut (q q' : LlcQ) : Option (Octets × Nat) → Prop
  | none => q' = q ∧ ∀ k, inQueue q k = []
  | some (d, c) => c < 12 ∧ (∃ fs, inQueue q c = d :: fs) ∧ (∀ k, k < c → inQueue q k = []) ∧
      ∀ k, inQueue q' k = if k = c then (inQueue q c).tail else inQueue q k

/-- The outcome of a dequeue. -/
theorem dequeue_ok {q q' : LlcQ} {now : Int} {cd : Bool} {out : Option (Octets × Nat)} (h : QOk q)
    (hd : q.dequeue now cd = .ok (q', out)) : QOk q' ∧ DeqOut q q' out := by
  unfold LlcQ.dequeue LlcQ.pickMsg at hd
  cases hf : q.findMsg with
  | none =>
    rw [hf] at hd
    cases hd
    refine ⟨h, rfl, fun k => ?_⟩
    rcases Nat.lt_or_ge k 12 with hk | hk
    · exact findMsg_none hf k hk
    · exact h.classes k hk
  | some c =>
    obtain ⟨hc, hne, hlow⟩ := findMsg_some hf
    rw [hf] at hd
    simp only at hd
    cases hfr : (q.pq c).frames with
    | nil => exact absurd hfr hne
    | cons f fs =>
      rw [hfr] at hd
      simp only at hd
      by_cases he : f.data = []
      · rw [if_pos he] at hd; cases hd
      · rw [if_neg he] at hd
        simp only [Res.bind_ok] at hd
        generalize hq1 : ({ q with pq := q.setPq c fs, size := sizeSub q.size 1,
                                   octets := sizeSub q.octets f.data.length } : LlcQ) = q1 at hd
        obtain ⟨k1, k2, k3, _⟩ := inQueue_codelDecision q1 f c now cd
        split at hd
        · cases hd
        · injection hd with hd
          injection hd with hq' hout
          subst hq'; subst hout
          have hin : inQueue q c = f.data :: fs.map (·.data) := by simp [inQueue, hfr]
          have hk : ∀ k, inQueue (q1.codelDecision f c now cd).1 k =
              if k = c then fs.map (·.data) else inQueue q k := by
            intro k
            rw [k1, ← hq1, inQueue_setPq]
          have hs1 := le_sum (fun k => (inQueue q k).length) c 12 hc
          have hs2 := le_sum (fun k => ((inQueue q k).map List.length).sum) c 12 hc
          obtain ⟨e1, e2⟩ := h.counters
          rw [← e1, hin] at hs1
          rw [← e2, hin] at hs2
          simp only [List.length_cons, List.map_cons, List.sum_cons] at hs1 hs2
          refine ⟨⟨?_, ?_⟩, hc, ⟨_, hin⟩, hlow, ?_⟩
          · refine counters_change h.counters hc hk ?_ ?_
            · rw [k2, ← hq1, hin]
              simp only [sizeSub, List.length_cons]
              rw [if_pos (by omega)]
              omega
            · rw [k3, ← hq1, hin]
              simp only [sizeSub, List.map_cons, List.sum_cons]
              rw [if_pos (by omega)]
              omega
          · intro k hk'
            rw [hk, if_neg (by omega)]
            exact h.classes k hk'
          · intro k
            rw [hk, hin]
            rfl

/-! ## Merge -/

theorem moveAll_eq (old new : List LlcFrame) : moveAll old new = old.reverse ++ new := by
  induction old generalizing new with
  | nil => rfl
  | cons x old ih => rw [moveAll, ih]; simp

theorem empty_of_size {q : LlcQ} (h : QOk q) (hs : q.size = 0) : ∀ c, inQueue q c = [] := by
  intro c
  rcases Nat.lt_or_ge c 12 with hc | hc
  · have := le_sum (fun k => (inQueue q k).length) c 12 hc
    rw [← h.counters.1, hs] at this
    exact List.length_eq_zero_iff.1 (by omega)
  · exact h.classes c hc

theorem sum_add (f g : Nat → Nat) (n : Nat) :
    ((List.range n).map fun k => f k + g k).sum = ((List.range n).map f).sum + ((List.range n).map g).sum := by
  induction n with
  | zero => rfl
  | succ n ih => simp [List.range_succ, ih]; omega

theorem inQueue_merge {q old : LlcQ} (ho : QOk old) (c : Nat) :
    inQueue (q.mergePrepend old) c = (inQueue old c).reverse ++ inQueue q c := by
  unfold LlcQ.mergePrepend
  split
  · rename_i hs
    rw [empty_of_size ho hs c]
    rfl
  · unfold inQueue
    simp only
    split
    · rw [moveAll_eq]; simp
    · rename_i hc
      have := ho.classes c (by unfold numPq at hc; omega)
      unfold inQueue at this
      rw [this]
      rfl

theorem qok_merge {q old : LlcQ} (h : QOk q) (ho : QOk old) : QOk (q.mergePrepend old) := by
  constructor
  · have e := fun c => inQueue_merge (q := q) ho c
    unfold LlcQ.mergePrepend at *
    split
    · exact h.counters
    · rename_i hs
      simp only [hs, if_false] at e
      obtain ⟨a1, a2⟩ := h.counters
      obtain ⟨b1, b2⟩ := ho.counters
      constructor
      · simp only [e, List.length_append, List.length_reverse, sum_add]
        omega
      · simp only [e, List.map_append, List.map_reverse, List.sum_append, List.sum_reverse, sum_add]
        omega
  · intro c hc
    rw [inQueue_merge ho, h.classes c hc, ho.classes c hc]
    rfl

theorem qok_clear (q : LlcQ) : QOk q.clear := ⟨qok_alloc.counters, fun _ _ => rfl⟩

/-! ## The two queues and the log -/

/-- The invariant kept by all events; `gentle` strengthens conservation to order. -/
structure QInv (s : UlQueues) (l : QLog) : Prop where
  gre : QOk s.gre
  frozen : ∀ q, s.frozen = some q → QOk q
  log : ∀ c, (l.delivered c ++ waiting s c).Perm (l.accepted c)

theorem qinv_init (u : Bool) (ms : Int) : QInv (UlQueues.init u ms) QLog.init :=
  ⟨qok_init u ms, nofun, fun c => by
    have : waiting (UlQueues.init u ms) c = [] := by
      show [] ++ inQueue (LlcQ.alloc.setCodel u ms) c = []
      rw [inQueue_setCodel]; rfl
    rw [this]
    exact List.Perm.refl _⟩

theorem waiting_release {s : UlQueues} {l : QLog} (h : QInv s l) (c : Nat) :
    waiting s.release c = (inFrozen s c).reverse ++ inQueue s.gre c ∧ QOk s.release.gre ∧ s.release.frozen = none := by
  unfold UlQueues.release waiting inFrozen
  cases hf : s.frozen with
  | none => simp only [hf]; exact ⟨rfl, h.gre, trivial⟩
  | some old =>
    simp only [List.nil_append]
    exact ⟨inQueue_merge (h.frozen old hf) c, qok_merge h.gre (h.frozen old hf), trivial⟩

theorem deq_log {l : QLog} {s s' : UlQueues} {now : Int} {out : Option (Octets × Nat)}
    (hd : s.step (.deq now) = .ok (s', out)) (h : QInv s l) :
    QInv s' (l.note (.deq now) out) ∧
    (∀ c, (l.note (.deq now) out).accepted c = l.accepted c) ∧
    ∀ c, (l.note (.deq now) out).delivered c ++ waiting s' c = l.delivered c ++ waiting s c := by
  have key : (QOk s'.gre ∧ ∀ q, s'.frozen = some q → QOk q) ∧
      (∀ c, (l.note (.deq now) out).delivered c ++ waiting s' c = l.delivered c ++ waiting s c) := by
    unfold UlQueues.step at hd
    cases hf : s.frozen with
    | some old =>
      rw [hf] at hd
      simp only at hd
      cases hx : old.dequeue now false with
      | err e => rw [hx] at hd; cases hd
      | ub f => rw [hx] at hd; cases hd
      | ok r =>
        obtain ⟨q', o⟩ := r
        rw [hx] at hd
        simp only [Res.bind_ok] at hd
        cases hd
        obtain ⟨hok, hout⟩ := dequeue_ok (h.frozen old hf) hx
        refine ⟨⟨h.gre, fun q hq => by injection hq with hq; exact hq ▸ hok⟩, fun c => ?_⟩
        cases out with
        | none =>
          obtain ⟨rfl, _⟩ := hout
          simp [QLog.note, waiting, inFrozen, hf]
        | some dc =>
          obtain ⟨d, k⟩ := dc
          obtain ⟨_, ⟨fs, e⟩, _, e2⟩ := hout
          simp only [QLog.note, waiting, inFrozen, hf, e2]
          by_cases hk : c = k
          · subst hk; rw [if_pos rfl, if_pos rfl, e]; simp
          · rw [if_neg hk, if_neg hk]
    | none =>
      rw [hf] at hd
      simp only at hd
      cases hx : s.gre.dequeue now true with
      | err e => rw [hx] at hd; cases hd
      | ub f => rw [hx] at hd; cases hd
      | ok r =>
        obtain ⟨q', o⟩ := r
        rw [hx] at hd
        simp only [Res.bind_ok] at hd
        cases hd
        obtain ⟨hok, hout⟩ := dequeue_ok h.gre hx
        refine ⟨⟨hok, fun q hq => by simp at hq⟩, fun c => ?_⟩
        cases out with
        | none =>
          obtain ⟨rfl, _⟩ := hout
          simp [QLog.note, waiting, inFrozen, hf]
        | some dc =>
          obtain ⟨d, k⟩ := dc
          obtain ⟨_, ⟨fs, e⟩, _, e2⟩ := hout
          simp only [QLog.note, waiting, inFrozen, hf, e2, List.nil_append]
          by_cases hk : c = k
          · subst hk; rw [if_pos rfl, if_pos rfl, e]; simp
          · rw [if_neg hk, if_neg hk]
  have hacc : ∀ c, (l.note (.deq now) out).accepted c = l.accepted c := by
    intro c
    cases out <;> rfl
  refine ⟨⟨key.1.1, key.1.2, fun c => ?_⟩, hacc, key.2⟩
  rw [key.2, hacc]
  exact h.log c

theorem enq_log {l : QLog} {s s' : UlQueues} {data : Octets} {sapi prio : Nat} {now : Int} {out : Option (Octets × Nat)}
    (hd : s.step (.enq data sapi prio now) = .ok (s', out)) (h : QInv s l) :
    QOk s'.gre ∧ s'.frozen = s.frozen ∧ ∀ c, waiting s' c = if c = classOf sapi prio then waiting s c ++ [data] else waiting s c := by
  cases hd
  refine ⟨qok_enqueue h.gre data sapi prio now, rfl, fun c => ?_⟩
  simp only [waiting, inFrozen, inQueue_enqueue]
  by_cases hc : c = classOf sapi prio
  · subst hc
    simp
  · rw [if_neg hc, if_neg hc]

theorem countdown_log {l : QLog} {s s' : UlQueues} {out : Option (Octets × Nat)}
    (hd : s.step .countdown = .ok (s', out)) (h : QInv s l) :
    (QOk s'.gre ∧ ∀ q, s'.frozen = some q → QOk q) ∧ ∀ c, waiting s' c = waiting s c := by
  unfold UlQueues.step at hd
  cases hf : s.frozen with
  | some q =>
    rw [hf] at hd
    cases hd
    exact ⟨⟨h.gre, h.frozen⟩, fun _ => rfl⟩
  | none =>
    rw [hf] at hd
    cases hd
    refine ⟨⟨qok_alloc, fun q hq => by injection hq with hq; exact hq ▸ h.gre⟩, fun c => ?_⟩
    simp only [waiting, inFrozen, hf]
    show inQueue s.gre c ++ [] = _
    simp

theorem step_inv {l : QLog} {s s' : UlQueues} {e : QEv} {out : Option (Octets × Nat)}
    (hd : s.step e = .ok (s', out)) (h : QInv s l) : QInv s' (l.note e out) := by
  cases e with
  | enq data sapi prio now =>
    obtain ⟨a, b, c⟩ := enq_log hd h
    refine ⟨a, b ▸ h.frozen, fun k => ?_⟩
    rw [c]
    show (l.delivered k ++ _).Perm (if k = classOf sapi prio then l.accepted k ++ [data] else l.accepted k)
    split
    · rw [← List.append_assoc]
      exact (h.log k).append_right _
    · exact h.log k
  | deq now => exact (deq_log hd h).1
  | countdown =>
    obtain ⟨⟨a, b⟩, c⟩ := countdown_log hd h
    refine ⟨a, b, fun k => ?_⟩
    rw [c]
    exact h.log k
  | tbfFreed =>
    cases hd
    obtain ⟨_, a, b⟩ := waiting_release h 0
    refine ⟨a, fun q hq => (by rw [b] at hq; cases hq), fun k => ?_⟩
    rw [(waiting_release h k).1]
    refine List.Perm.trans ?_ (h.log k)
    exact ((List.reverse_perm _).append_right _).append_left _
  | clear =>
    cases hd
    obtain ⟨_, a, b⟩ := waiting_release h 0
    refine ⟨qok_clear _, fun q hq => by simp [b] at hq, fun k => ?_⟩
    have : waiting { s.release with gre := s.release.gre.clear } k = [] := by
      unfold waiting inFrozen
      simp only [b]
      rfl
    rw [this]
    exact List.Perm.refl _

theorem qrun_inv {es : List QEv} {s s' : UlQueues} {l l' : QLog} (h : QInv s l) (hr : qrun es (s, l) = .ok (s', l')) :
    QInv s' l' := by
  induction es generalizing s l with
  | nil => cases hr; exact h
  | cons e es ih =>
    unfold qrun at hr
    cases hx : s.step e with
    | err _ => rw [hx] at hr; cases hr
    | ub _ => rw [hx] at hr; cases hr
    | ok r =>
      obtain ⟨s1, out⟩ := r
      rw [hx] at hr
      exact ih (step_inv hx h) hr

end Verif.Rlc
