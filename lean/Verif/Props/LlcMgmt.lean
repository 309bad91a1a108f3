import Verif.Spec.LlcTable9
import Verif.Props.LlcEntity
import Verif.Props.LlcXid

/-!
# LLC management: C13 (TLLI attribution), C14 (negotiated parameters), C58/C59 (XID exchange)
-/
namespace Verif.Props

open Verif.Llc Verif.Spec

/-! ## C13 -/

/-- Specification: a TLLI is valid for an entity if it is its current TLLI or its still valid old one. -/
def Accepts (m : Llme) (t : Nat) : Prop := m.tlli = t ∨ (m.oldTlli = t ∧ m.oldTlli ≠ tlliUnassigned)

/-- **C13**, full statement of attribution in a context: position `i` is found for `t` exactly when the
entity there accepts `t`. -/
def Attribution (c : Ctx) : Prop :=
  ∀ t i, c.find t = some i ↔ ∃ m, c.llmes[i]? = some m ∧ Accepts m t

/-- No TLLI (other than the unassigned value) is valid for two entities. -/
def Unique (c : Ctx) : Prop :=
  ∀ (i j : Nat) (mi mj : Llme) (t : Nat), t ≠ tlliUnassigned → c.llmes[i]? = some mi →
    c.llmes[j]? = some mj → Accepts mi t → Accepts mj t → i = j

/-- A well-behaved history: data primitives carry assigned TLLIs, and a TLLI change gives an entity a
TLLI that no *other* entity holds. -/
def Proper : Ctx → List Op → Prop
  | _, [] => True
  | c, op :: ops =>
    (match op with
      | .unitdataReq t _ _ _ => t ≠ tlliUnassigned
      | .rxPdu t _ => t ≠ tlliUnassigned
      | .assignReq old new => old ≠ tlliUnassigned → new ≠ tlliUnassigned →
          ∀ (j : Nat) (m : Llme), c.llmes[j]? = some m → Accepts m new → c.find old = some j
      | _ => True) ∧ Proper (c.step op).ctx ops

theorem find_accepts {c : Ctx} {t i : Nat} (ht : t ≠ tlliUnassigned) (h : c.find t = some i) :
    ∃ m, c.llmes[i]? = some m ∧ Accepts m t := by
  unfold Ctx.find at h
  rw [List.findIdx?_eq_some_iff_getElem] at h
  obtain ⟨hi, h1, _⟩ := h
  refine ⟨c.llmes[i], List.getElem?_eq_getElem hi, ?_⟩
  simp only [Bool.or_eq_true, beq_iff_eq] at h1
  rcases h1 with h1 | h1
  · exact .inl h1
  · exact .inr ⟨h1, by rw [h1]; exact ht⟩

theorem find_some_of_accepts {c : Ctx} {t i : Nat} {m : Llme} (hm : c.llmes[i]? = some m)
    (ha : Accepts m t) : ∃ j, c.find t = some j := by
  cases h : c.find t with
  | some j => exact ⟨j, rfl⟩
  | none =>
    unfold Ctx.find at h
    rw [List.findIdx?_eq_none_iff] at h
    have := h m (List.mem_of_getElem? hm)
    simp only [Bool.or_eq_false_iff, beq_eq_false_iff_ne] at this
    rcases ha with ha | ha
    · exact absurd ha this.1
    · exact absurd ha.1 this.2

theorem unique_attribution {c : Ctx} (h : Unique c) (t : Nat) (ht : t ≠ tlliUnassigned) (i : Nat) :
    c.find t = some i ↔ ∃ m, c.llmes[i]? = some m ∧ Accepts m t := by
  refine ⟨find_accepts ht, ?_⟩
  rintro ⟨m, hm, ha⟩
  obtain ⟨j, hj⟩ := find_some_of_accepts hm ha
  obtain ⟨m', hm', ha'⟩ := find_accepts ht hj
  rw [hj, h i j m m' t ht hm hm' ha ha']

/-- Replacing an entity by one that accepts no TLLI new to it except some held by nobody else. -/
theorem unique_set {c : Ctx} (h : Unique c) {i : Nat} {m m' : Llme} (hm : c.llmes[i]? = some m)
    (hacc : ∀ t, t ≠ tlliUnassigned → Accepts m' t → Accepts m t ∨
      ∀ (j : Nat) (mj : Llme), c.llmes[j]? = some mj → Accepts mj t → j = i) :
    Unique { c with llmes := c.llmes.set i m' } := by
  have hi := (List.getElem?_eq_some_iff.1 hm).1
  intro a b ma mb t ht h1 h2 h3 h4
  simp only at h1 h2
  rw [List.getElem?_set] at h1 h2
  split at h1 <;> split at h2
  · omega
  · rename_i e1 e2
    subst e1
    simp only [Option.some.injEq] at h1
    subst h1
    rcases hacc t ht h3 with k | k
    · exact h _ _ _ _ t ht hm h2 k h4
    · exact (k b mb h2 h4).symm
  · rename_i e1 e2
    subst e2
    simp only [Option.some.injEq] at h2
    subst h2
    rcases hacc t ht h4 with k | k
    · exact (h _ _ _ _ t ht hm h1 k h3).symm
    · exact k a ma h1 h3
  · exact h a b ma mb t ht h1 h2 h3 h4

theorem unique_onLle {c : Ctx} (h : Unique c) (i s : Nat) (f : Llme → Lle → LleRes) :
    Unique (c.onLle i s f).ctx := by
  unfold Ctx.onLle
  split
  · exact h
  split
  · exact h
  · rename_i m hm
    exact unique_set h hm (fun t _ ha => .inl ha)

theorem unique_alloc {c : Ctx} (h : Unique c) {t : Nat} (ht : c.find t = none) : Unique (c.alloc t) := by
  have hno : ∀ (j : Nat) (m : Llme), c.llmes[j]? = some m → ¬ Accepts m t := by
    intro j m hm ha
    obtain ⟨k, hk⟩ := find_some_of_accepts hm ha
    rw [ht] at hk; cases hk
  have hnew : ∀ t', Accepts (Llme.alloc t) t' → t' = t := by
    intro t' ha
    rcases ha with ha | ha
    · exact ha.symm
    · exact absurd rfl ha.2
  intro a b ma mb t' ht' h1 h2 h3 h4
  simp only [Ctx.alloc] at h1 h2
  cases a <;> cases b
  · rfl
  · simp only [List.getElem?_cons_zero, List.getElem?_cons_succ, Option.some.injEq] at h1 h2
    subst h1
    rw [hnew t' h3] at h4
    exact absurd h4 (hno _ _ h2)
  · simp only [List.getElem?_cons_zero, List.getElem?_cons_succ, Option.some.injEq] at h1 h2
    subst h2
    rw [hnew t' h4] at h3
    exact absurd h3 (hno _ _ h1)
  · simp only [List.getElem?_cons_succ] at h1 h2
    rw [h _ _ _ _ t' ht' h1 h2 h3 h4]

theorem unique_erase {c : Ctx} (h : Unique c) (i : Nat) : Unique { c with llmes := c.llmes.eraseIdx i } := by
  intro a b ma mb t ht h1 h2 h3 h4
  simp only [List.getElem?_eraseIdx] at h1 h2
  split at h1 <;> split at h2 <;> have := h _ _ _ _ t ht h1 h2 h3 h4 <;> omega

theorem unique_step {c : Ctx} (h : Unique c) (op : Op) (ops : List Op) (hp : Proper c (op :: ops)) :
    Unique (c.step op).ctx := by
  have known : ∀ (t sapi : Nat) (f : Llme → Lle → LleRes), Unique (c.onKnown t sapi f).ctx := by
    intro t s f
    unfold Ctx.onKnown
    split
    · exact h
    · exact unique_onLle h _ _ _
  have susp : ∀ t b, Unique (c.setSuspended t b).ctx := by
    intro t b
    unfold Ctx.setSuspended
    split
    · exact h
    split
    · exact h
    · rename_i m hm; exact unique_set h hm (fun t _ ha => .inl ha)
  obtain ⟨hp1, _⟩ := hp
  cases op with
  | xidReq => exact known _ _ _
  | xidResp => exact known _ _ _
  | establishReq => exact known _ _ _
  | resetReq => exact known _ _ _
  | triggerReq => exact known _ _ _
  | suspendReq t => exact susp t true
  | resumeReq t => exact susp t false
  | unitdataReq t s prio data =>
    simp only [Ctx.step, Ctx.unitdataReq]
    split
    · exact unique_onLle h _ _ _
    · rename_i hf
      split
      · exact unique_alloc h hf
      · exact unique_onLle (unique_alloc h hf) _ _ _
  | rxPdu t d =>
    simp only [Ctx.step, Ctx.rxPdu]
    split
    · exact h
    · exact h
    · split
      · exact h
      · have hc : Unique (c.lleForRx t ‹Decoded›.sapi ‹Decoded›.func).1 := by
          unfold Ctx.lleForRx
          split
          · exact h
          · rename_i hf
            split
            · exact unique_alloc h hf
            · exact h
        split
        · rename_i heq; rw [heq] at hc; exact hc
        · rename_i heq; rw [heq] at hc; exact unique_onLle hc _ _ _
  | assignReq o n =>
    simp only at hp1
    simp only [Ctx.step, Ctx.assignReq]
    split
    · exact h
    split
    · exact h
    rename_i hboth _ i hfind
    split
    · exact h
    rename_i m hm
    split
    · exact unique_erase h _
    · rename_i m' hm'
      refine unique_set h hm (fun t ht ha => ?_)
      unfold Llme.assign at hm'
      by_cases ho : o = tlliUnassigned
      · have hn : n ≠ tlliUnassigned := fun e => hboth ⟨ho, e⟩
        rw [if_neg (by simpa using ho)] at hfind
        obtain ⟨m2, hm2, ha2⟩ := find_accepts hn hfind
        rw [hm] at hm2; injection hm2 with hm2; subst hm2
        left
        rw [if_pos ho] at hm'
        split at hm'
        · injection hm' with hm'; subst hm'
          rcases ha with ha | ha
          · simp only at ha; rw [← ha]; exact ha2
          · exact absurd rfl ha.2
        · rename_i hold
          injection hm' with hm'; subst hm'
          rcases ha with ha | ha
          · simp only at ha; rw [← ha]; exact ha2
          · exact absurd (by simpa using hold) ha.2
      · rw [if_neg ho] at hm'
        rw [if_pos ho] at hfind
        by_cases hn : n = tlliUnassigned
        · rw [if_neg (by simpa using hn)] at hm'; cases hm'
        · rw [if_pos hn] at hm'
          injection hm' with hm'; subst hm'
          rcases ha with ha | ha
          · right
            simp only at ha; subst ha
            intro j mj hj haj
            have := hp1 ho hn j mj hj haj
            rw [hfind] at this; injection this with this; exact this.symm
          · left
            simp only at ha
            rw [← ha.1]
            obtain ⟨m2, hm2, ha2⟩ := find_accepts ho hfind
            rw [hm] at hm2; injection hm2 with hm2; subst hm2
            exact ha2

theorem unique_run : ∀ (ops : List Op) (c : Ctx), Unique c → Proper c ops → Unique (c.run ops).1 := by
  intro ops
  induction ops with
  | nil => intro c h _; exact h
  | cons op ops ih => intro c h hp; exact ih _ (unique_step h op ops hp) hp.2

theorem proper_append : ∀ (a b : List Op) (c : Ctx), Proper c (a ++ b) →
    Proper c a ∧ Proper (c.run a).1 b := by
  intro a
  induction a with
  | nil => intro b c h; exact ⟨trivial, h⟩
  | cons op a ih => intro b c h; exact ⟨⟨h.1, (ih b _ h.2).1⟩, (ih b _ h.2).2⟩

/-- **C13 (attribution).** After any proper history every assigned TLLI is attributed to an entity
exactly when it is the entity's current or still valid old TLLI.  Missing from the full property: the
value 0xffffffff, and histories that give one TLLI to two entities
(`c13_violated_unassigned`, `c13_violated_collision`). -/
theorem c13_attribution_partial (loc : Location) (ops : List Op) (hp : Proper (Ctx.init loc) ops)
    (t : Nat) (ht : t ≠ tlliUnassigned) (i : Nat) :
    let c := ((Ctx.init loc).run ops).1
    c.find t = some i ↔ ∃ m, c.llmes[i]? = some m ∧ Accepts m t :=
  unique_attribution (unique_run ops _ (fun i j mi mj t _ h => by simp [Ctx.init] at h) hp) t ht i

/-- **C13 (TLLI change).** After LLGMM-ASSIGN(old, new) frames with either TLLI go to the same entity as
`old` did before, and the peer is addressed with `new`. -/
theorem c13_change (loc : Location) (ops : List Op) (old new i : Nat) (ho : old ≠ tlliUnassigned)
    (hn : new ≠ tlliUnassigned) (hp : Proper (Ctx.init loc) (ops ++ [.assignReq old new]))
    (hf : ((Ctx.init loc).run ops).1.find old = some i) :
    let c' := (((Ctx.init loc).run ops).1.step (.assignReq old new)).ctx
    c'.find old = some i ∧ c'.find new = some i ∧ ∃ m, c'.llmes[i]? = some m ∧ m.tlli = new := by
  obtain ⟨hp1, hpc⟩ := proper_append _ _ _ hp
  have hu := unique_run ops _ (fun i j mi mj t _ h => by simp [Ctx.init] at h) hp1
  clear hp hp1
  generalize ((Ctx.init loc).run ops).1 = c at hu hf hpc
  have hu' := unique_step hu _ _ hpc
  obtain ⟨m, hm, _⟩ := find_accepts ho hf
  have hi := (List.getElem?_eq_some_iff.1 hm).1
  have hstep : (c.step (.assignReq old new)).ctx =
      { c with llmes := c.llmes.set i { m with oldTlli := old, tlli := new } } := by
    simp [Ctx.step, Ctx.assignReq, Llme.assign, ho, hn, hf, hm]
  rw [hstep] at hu' ⊢
  have hm' : (c.llmes.set i { m with oldTlli := old, tlli := new })[i]? =
      some { m with oldTlli := old, tlli := new } := by simp [hi]
  exact ⟨(unique_attribution hu' old ho i).2 ⟨_, hm', .inr ⟨rfl, ho⟩⟩,
    (unique_attribution hu' new hn i).2 ⟨_, hm', .inl rfl⟩, _, hm', rfl⟩

/-- **C13 (unassignment).** After LLGMM-ASSIGN(old, unassigned) the entity is gone: neither `old` nor
any other TLLI it accepted is attributed to anything. -/
theorem c13_unassign (loc : Location) (ops : List Op) (old i : Nat) (m : Llme)
    (ho : old ≠ tlliUnassigned) (hp : Proper (Ctx.init loc) ops)
    (hf : ((Ctx.init loc).run ops).1.find old = some i)
    (hm : ((Ctx.init loc).run ops).1.llmes[i]? = some m) (t : Nat) (ht : t ≠ tlliUnassigned)
    (ha : Accepts m t) :
    (((Ctx.init loc).run ops).1.step (.assignReq old tlliUnassigned)).ctx.find t = none := by
  have hu := unique_run ops _ (fun i j mi mj t _ h => by simp [Ctx.init] at h) hp
  generalize ((Ctx.init loc).run ops).1 = c at hf hm hu
  have hstep : (c.step (.assignReq old tlliUnassigned)).ctx =
      { c with llmes := c.llmes.eraseIdx i } := by
    simp [Ctx.step, Ctx.assignReq, Llme.assign, ho, hf, hm]
  rw [hstep]
  cases hfd : Ctx.find { c with llmes := c.llmes.eraseIdx i } t with
  | none => rfl
  | some j =>
    obtain ⟨mj, hj, haj⟩ := find_accepts ht hfd
    simp only [List.getElem?_eraseIdx] at hj
    split at hj <;> have := hu _ _ _ _ t ht hm hj ha haj <;> omega

/-- **C13 (confirmation).** After LLGMM-ASSIGN(unassigned, new) the entity found for `new` is no longer
addressed by its old TLLI. -/
theorem c13_confirm (loc : Location) (ops : List Op) (new i : Nat) (m : Llme)
    (hn : new ≠ tlliUnassigned) (hp : Proper (Ctx.init loc) ops)
    (hf : ((Ctx.init loc).run ops).1.find new = some i)
    (hm : ((Ctx.init loc).run ops).1.llmes[i]? = some m) (t : Nat) (ht : t ≠ tlliUnassigned)
    (ha : Accepts m t) (htn : t ≠ new) :
    let c' := (((Ctx.init loc).run ops).1.step (.assignReq tlliUnassigned new)).ctx
    c'.find t = none ∧ c'.find new = some i := by
  have hu := unique_run ops _ (fun i j mi mj t _ h => by simp [Ctx.init] at h) hp
  generalize ((Ctx.init loc).run ops).1 = c at hf hm hu
  intro c'
  have hpc : Proper c [.assignReq tlliUnassigned new] := ⟨fun h => absurd rfl h, trivial⟩
  have hu' : Unique c' := unique_step hu _ _ hpc
  have hi := (List.getElem?_eq_some_iff.1 hm).1
  obtain ⟨m', hstep, h1, h2⟩ : ∃ m', c' = { c with llmes := c.llmes.set i m' } ∧ m'.tlli = new ∧
      m'.oldTlli = tlliUnassigned := by
    by_cases hold : m.oldTlli = tlliUnassigned
    · refine ⟨{ m with
        tlli := new
        lle := fun s => if m.tlli ≠ new then { m.lle s with vuSend := 0, vuRecv := 0 } else m.lle s },
        ?_, rfl, hold⟩
      simp [c', Ctx.step, Ctx.assignReq, Llme.assign, hn, hf, hm, hold]
    · refine ⟨{ m with oldTlli := tlliUnassigned, tlli := new }, ?_, rfl, rfl⟩
      simp [c', Ctx.step, Ctx.assignReq, Llme.assign, hn, hf, hm, hold]
  have hm' : c'.llmes[i]? = some m' := by rw [hstep]; simp [hi]
  refine ⟨?_, (unique_attribution hu' new hn i).2 ⟨m', hm', .inl h1⟩⟩
  cases hfd : c'.find t with
  | none => rfl
  | some j =>
    obtain ⟨mj, hj, haj⟩ := find_accepts ht hfd
    by_cases hij : j = i
    · subst hij
      rw [hm'] at hj; injection hj with hj; subst hj
      rcases haj with e | e
      · rw [h1] at e; exact absurd e.symm htn
      · exact absurd h2 e.2
    · rw [hstep] at hj
      simp only at hj
      rw [List.getElem?_set_ne (fun e => hij e.symm)] at hj
      exact absurd (hu _ _ _ _ t ht hj hm haj ha) hij

/-- A UI frame with two octets on the GMM SAPI. -/
def gmmFrame : Octets := uiFrame false 1 0 [8, 1]

/-- C13 is false for the unassigned TLLI: an entity that has no old TLLI accepts frames addressed to
0xffffffff. -/
theorem c13_violated_unassigned :
    ∃ ops, (((Ctx.init .sgsn).run ops).1.step (.rxPdu tlliUnassigned gmmFrame)).out =
      [.unitdataInd 0xc0000001 1 [8, 1]] ∧ ¬ Attribution ((Ctx.init .sgsn).run ops).1 := by
  refine ⟨[.rxPdu 0xc0000001 gmmFrame, .resetReq 0xc0000001 0], by decide +kernel, ?_⟩
  intro h
  have := (h tlliUnassigned 0).1 (by decide +kernel)
  obtain ⟨m, hm, ha⟩ := this
  rcases ha with ha | ha
  · have h2 : (((Ctx.init .sgsn).run [.rxPdu 0xc0000001 gmmFrame, .resetReq 0xc0000001 0]).1.llmes[0]?.map
      Llme.tlli) = some 0xc0000001 := by decide +kernel
    rw [hm] at h2
    simp only [Option.map_some, Option.some.injEq] at h2
    rw [h2] at ha
    exact absurd ha (by decide)
  · have := ha.1
    exact ha.2 this

/-- C13 is false when a TLLI is assigned to an entity while another one holds it: one of them can no
longer be reached. -/
theorem c13_violated_collision : ∃ ops, ¬ Attribution ((Ctx.init .sgsn).run ops).1 := by
  refine ⟨[.unitdataReq 0xc0000001 1 1 [1], .unitdataReq 0xc0000002 1 1 [1],
    .assignReq 0xc0000001 0xc0000002], ?_⟩
  intro h
  have h1 := (h 0xc0000002 1).2
  obtain ⟨m, hm⟩ : ∃ m, ((Ctx.init .sgsn).run [.unitdataReq 0xc0000001 1 1 [1],
    .unitdataReq 0xc0000002 1 1 [1], .assignReq 0xc0000001 0xc0000002]).1.llmes[1]? = some m := by
    cases hc : ((Ctx.init .sgsn).run [.unitdataReq 0xc0000001 1 1 [1],
      .unitdataReq 0xc0000002 1 1 [1], .assignReq 0xc0000001 0xc0000002]).1.llmes[1]? with
    | some m => exact ⟨m, rfl⟩
    | none =>
      have : (((Ctx.init .sgsn).run [.unitdataReq 0xc0000001 1 1 [1],
        .unitdataReq 0xc0000002 1 1 [1], .assignReq 0xc0000001 0xc0000002]).1.llmes[1]?).isSome = true := by
        decide +kernel
      rw [hc] at this; cases this
  have h2 : (((Ctx.init .sgsn).run [.unitdataReq 0xc0000001 1 1 [1],
      .unitdataReq 0xc0000002 1 1 [1], .assignReq 0xc0000001 0xc0000002]).1.llmes[1]?.map
      Llme.tlli) = some 0xc0000002 := by decide +kernel
  rw [hm] at h2
  simp only [Option.map_some, Option.some.injEq] at h2
  have h3 := h1 ⟨m, hm, .inl h2⟩
  have h4 : ((Ctx.init .sgsn).run [.unitdataReq 0xc0000001 1 1 [1],
      .unitdataReq 0xc0000002 1 1 [1], .assignReq 0xc0000001 0xc0000002]).1.find 0xc0000002 = some 0 := by
    decide +kernel
  rw [h4] at h3
  cases h3

/-- Non-vacuity of C13: a proper history with a TLLI change. -/
example : Proper (Ctx.init .ms) [.unitdataReq 0xc0000001 1 1 [1], .assignReq 0xc0000001 0xc0000002] := by
  refine ⟨by decide, ?_, trivial⟩
  intro _ _ j m hm ha
  have hl : ((Ctx.init .ms).step (.unitdataReq 0xc0000001 1 1 [1])).ctx.llmes.map
      (fun m => (m.tlli, m.oldTlli)) = [(0xc0000001, 0xffffffff)] := by decide +kernel
  have := congrArg (fun l => l[j]?) hl
  simp only [List.getElem?_map, hm, Option.map_some] at this
  cases j with
  | succ j => simp at this
  | zero =>
    simp only [List.getElem?_cons_zero, Option.some.injEq, Prod.mk.injEq] at this
    rcases ha with ha | ha
    · rw [this.1] at ha; cases ha
    · exact absurd this.2 ha.2

/-! ## C14 -/

/-- Specification of C14: every parameter of an entity on SAPI `s` is the default of TS 44.064 Table 9
or, for N201-U and N201-I, a value in the range of Table 6. -/
def ParamsLegal (s : Nat) (p : Params) : Prop :=
  (p.n201u = (table9 s).n201u ∨ XidLegal 5 p.n201u) ∧
  (p.n201i = (table9 s).n201i ∨ XidLegal 6 p.n201i) ∧
  p.iovIExp = (table9 s).iovIExp ∧ p.t200 = (table9 s).t200 ∧ p.n200 = (table9 s).n200 ∧
  p.mD = (table9 s).mD ∧ p.mU = (table9 s).mU ∧
  p.kD = (table9 s).kD ∧ p.kU = (table9 s).kU

theorem default_table9 (s : Nat) : defaultParams s = table9 s := by
  unfold defaultParams
  split
  iterate 8 rfl
  have : ∀ row : List Nat, inRow row s = 0 := by
    intro row
    unfold inRow
    rw [List.find?_eq_none.2, Option.elim_none]
    intro e he
    have := (List.of_mem_zip he).1
    simp only [table9Sapis, List.mem_cons, List.not_mem_nil, or_false] at this
    simp only [beq_iff_eq]
    rintro rfl
    simp_all
  simp only [table9, this]

theorem xidInd_legal (s : Nat) : ∀ (fs : List XidField) (st : Params × Bool),
    (∀ f ∈ fs, XidWellFormed f) → ParamsLegal s st.1 → ParamsLegal s (fs.foldl xidIndField st).1 := by
  intro fs
  induction fs with
  | nil => intro st _ h; exact h
  | cons f fs ih =>
    intro st hwf h
    refine ih _ (fun g hg => hwf g (by simp [hg])) ?_
    have hf := hwf f (by simp)
    obtain ⟨h1, h2, h3⟩ := h
    unfold xidIndField
    split
    · rename_i h5
      rcases hf with hf | hf
      · omega
      rw [h5] at hf
      have hv : f.val % 2 ^ 16 = f.val := Nat.mod_eq_of_lt (by have := hf.1; simp [XidLegal] at this; omega)
      split
      · refine ⟨.inr ?_, h2, h3⟩
        simp only [hv]; exact hf.1
      · exact ⟨h1, h2, h3⟩
    · split
      · rename_i h6
        rcases hf with hf | hf
        · omega
        rw [h6] at hf
        have hv : f.val % 2 ^ 16 = f.val := Nat.mod_eq_of_lt (by have := hf.1; simp [XidLegal] at this; omega)
        split
        · refine ⟨h1, .inr ?_, h3⟩
          simp only [hv]; exact hf.1
        · exact ⟨h1, h2, h3⟩
      · exact ⟨h1, h2, h3⟩

theorem txFrame_lle (loc : Location) (t s prio : Nat) (l : Lle) (p : Pdu) :
    (txFrame loc t s prio l p).lle = l := by
  unfold txFrame; cases encode p <;> rfl

theorem txUi_params (loc : Location) (t prio : Nat) (l : Lle) (d : Octets) :
    (l.txUi loc t prio d).lle.params = l.params := by
  unfold Lle.txUi
  split
  · rfl
  · split <;> rfl

theorem txXidReq_params (loc : Location) (t : Nat) (l : Lle) (l3 : Option Octets) :
    (l.txXidReq loc t l3).lle.params = l.params := by
  unfold Lle.txXidReq
  simp only
  split
  · split
    · rw [Lle.txXid, txFrame_lle]
    · rfl
  · rfl
  · rfl

theorem rx_legal (loc : Location) (t : Nat) (l : Lle) (d : Octets) (p : Decoded) (s : Nat)
    (h : ParamsLegal s l.params) : ParamsLegal s (l.rx loc t d p).lle.params := by
  unfold Lle.rx
  split
  · exact h
  split
  · split
    · exact h
    · exact h
  split
  · rw [Lle.txDm, txFrame_lle]; exact h
  · rw [Lle.txDm, txFrame_lle]; exact h
  · simp only
    split
    · unfold Lle.processXidInd
      split
      · exact h
      · exact h
      · rename_i fs hfs
        have hwf := ((c08_xid_decode_valid 16 (p.payload d)).2 fs hfs).2
        have := xidInd_legal s fs (l.params, false) hwf h
        simp only
        split
        · exact this
        · simp only [(txXidResp_same loc t _ []).1]; exact this
    · unfold Lle.processXidConf
      split <;> exact h
  · have := (acceptUi_same l p.seqTx).2.2
    split
    · rename_i heq; rw [heq] at this; simp only at this; rw [this]; exact h
    · rename_i heq; rw [heq] at this; simp only at this; rw [this]; exact h
  · exact h

/-- All entities of a context have legal parameters. -/
def CtxLegal (c : Ctx) : Prop := ∀ m ∈ c.llmes, ∀ s, ParamsLegal s (m.lle s).params

theorem default_legal (s : Nat) : ParamsLegal s (defaultParams s) :=
  default_table9 s ▸ ⟨.inl rfl, .inl rfl, rfl, rfl, rfl, rfl, rfl, rfl, rfl⟩

theorem legal_onLle {c : Ctx} (h : CtxLegal c) (i s : Nat) (f : Llme → Lle → LleRes)
    (hf : ∀ m ∈ c.llmes, ParamsLegal s (f m (m.lle s)).lle.params) : CtxLegal (c.onLle i s f).ctx := by
  unfold Ctx.onLle
  split
  · exact h
  split
  · exact h
  · rename_i m hm
    have hmem := List.mem_of_getElem? hm
    intro x hx s'
    rcases List.mem_or_eq_of_mem_set hx with hx | rfl
    · exact h x hx s'
    · simp only [Llme.setLle]
      split
      · rename_i e; subst e; exact hf m hmem
      · exact h m hmem s'

theorem legal_alloc {c : Ctx} (h : CtxLegal c) (t : Nat) : CtxLegal (c.alloc t) := by
  intro m hm s
  rcases List.mem_cons.1 hm with rfl | hm
  · exact default_legal s
  · exact h m hm s

theorem legal_step {c : Ctx} (h : CtxLegal c) (op : Op) : CtxLegal (c.step op).ctx := by
  have known : ∀ (t sapi : Nat) (f : Llme → Lle → LleRes), (∀ m ∈ c.llmes,
      ParamsLegal sapi (f m (m.lle sapi)).lle.params) → CtxLegal (c.onKnown t sapi f).ctx := by
    intro t s f hf
    unfold Ctx.onKnown
    split
    · exact h
    · exact legal_onLle h _ _ _ hf
  have setm : ∀ (i : Nat) (m' : Llme), (∀ s, ParamsLegal s (m'.lle s).params) →
      CtxLegal { c with llmes := c.llmes.set i m' } := by
    intro i m' hm' x hx s
    rcases List.mem_or_eq_of_mem_set hx with hx | rfl
    · exact h x hx s
    · exact hm' s
  have susp : ∀ t b, CtxLegal (c.setSuspended t b).ctx := by
    intro t b
    unfold Ctx.setSuspended
    split
    · exact h
    split
    · exact h
    · rename_i m hm; exact setm _ _ (h m (List.mem_of_getElem? hm))
  cases op with
  | xidReq t s l3 => exact known _ _ _ (fun m hm => by rw [txXidReq_params]; exact h m hm s)
  | xidResp t s l3 => exact known _ _ _ (fun m hm => by rw [(txXidResp_same _ _ _ _).1]; exact h m hm s)
  | establishReq t s => exact known _ _ _ (fun m hm => h m hm s)
  | resetReq t iov =>
    refine known _ _ _ (fun m hm => ?_)
    unfold Lle.reset
    simp only
    split
    · rw [Lle.txXid, txFrame_lle]; exact h m hm 1
    · exact h m hm 1
    · exact h m hm 1
  | triggerReq t cell =>
    refine known _ _ _ (fun m hm => ?_)
    split
    · rw [Lle.txNull, txFrame_lle]; exact h m hm 1
    · rw [txUi_params]; exact h m hm 1
  | suspendReq t => exact susp t true
  | resumeReq t => exact susp t false
  | unitdataReq t s prio data =>
    have hact : ∀ c : Ctx, CtxLegal c → ∀ loc, ∀ m ∈ c.llmes, ParamsLegal s
        (if m.suspended ∧ s ≠ 1 then ({ lle := m.lle s } : LleRes) else (m.lle s).txUi loc m.tlli prio data).lle.params := by
      intro c h loc m hm
      split
      · exact h m hm s
      · rw [txUi_params]; exact h m hm s
    simp only [Ctx.step, Ctx.unitdataReq]
    split
    · exact legal_onLle h _ _ _ (hact c h c.loc)
    · split
      · exact legal_alloc h _
      · exact legal_onLle (legal_alloc h _) _ _ _ (hact _ (legal_alloc h _) c.loc)
  | rxPdu t d =>
    simp only [Ctx.step, Ctx.rxPdu]
    split
    · exact h
    · exact h
    · split
      · exact h
      · have hc : CtxLegal (c.lleForRx t ‹Decoded›.sapi ‹Decoded›.func).1 := by
          unfold Ctx.lleForRx
          split
          · exact h
          · split
            · exact legal_alloc h _
            · exact h
        split
        · rename_i heq; rw [heq] at hc; exact hc
        · rename_i heq; rw [heq] at hc
          exact legal_onLle hc _ _ _ (fun m hm => rx_legal _ _ _ _ _ _ (hc m hm _))
  | assignReq o n =>
    simp only [Ctx.step, Ctx.assignReq]
    split
    · exact h
    split
    · exact h
    split
    · exact h
    rename_i m hm
    have hms := h m (List.mem_of_getElem? hm)
    split
    · intro x hx; exact h x (List.mem_of_mem_eraseIdx hx)
    · rename_i m' hm'
      refine setm _ _ (fun s => ?_)
      unfold Llme.assign at hm'
      split at hm'
      · split at hm'
        · injection hm' with hm'; subst hm'; exact hms s
        · injection hm' with hm'; subst hm'
          simp only
          split
          · exact hms s
          · exact hms s
      · split at hm'
        · injection hm' with hm'; subst hm'; exact hms s
        · cases hm'

/-- **C14.** After any history of requests and peer frames (in particular any XID commands and
responses), every entity's parameters are the defaults or within the legal ranges; N201-U therefore
never exceeds 1520. -/
theorem c14_params_legal (loc : Location) (ops : List Op) (m : Llme)
    (hm : m ∈ ((Ctx.init loc).run ops).1.llmes) (s : Nat) :
    ParamsLegal s (m.lle s).params ∧ (m.lle s).params.n201u ≤ 1520 := by
  have : ∀ (ops : List Op) (c : Ctx), CtxLegal c → CtxLegal (c.run ops).1 := by
    intro ops
    induction ops with
    | nil => intro c h; exact h
    | cons op ops ih => intro c h; exact ih _ (legal_step h op)
  have hl := this ops _ (fun m hm => by simp [Ctx.init] at hm) m hm s
  refine ⟨hl, ?_⟩
  rcases hl.1 with h | h
  · rw [h, ← default_table9]
    unfold defaultParams
    split <;> simp
  · simp [XidLegal] at h; omega

/-- Non-vacuity of C14: the peer really can change N201-U. -/
example : (((Ctx.init .sgsn).run [.rxPdu 0xc0000001 gmmFrame,
    .rxPdu 0xc0000001 (match encode { sapi := 3, fmt := .U, func := .XID, flags := { follFin := true }
                                      data := [0x16, 0x01, 0x00] } with | .ok w => w | _ => [])]).1.llmes.map
    (fun m => (m.lle 3).params.n201u)) = [256] := by decide +kernel

end Verif.Props
