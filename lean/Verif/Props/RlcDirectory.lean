import Verif.Rlc.Directory
/-!
# C38: the entities of RLC/MAC follow the assignment of TLLIs
-/
namespace Verif.Props
open Verif Verif.Rlc

/-- The mobile station is known under the TLLI: by its current or its old one. -/
def Knows (e : GreNames) (t : Nat) : Prop := t ≠ noTlli ∧ (e.tlli = t ∨ e.oldTlli = t)

instance (e : GreNames) (t : Nat) : Decidable (Knows e t) := inferInstanceAs (Decidable (_ ∧ _))

/-- C38: at all times no two mobile stations are known under the same TLLI, so that each is found by the
TLLIs it is known under. -/
def C38Statement : Prop :=
  ∀ l : List GreOp, ∀ e ∈ (greRun greDir0 l).es, ∀ t, Knows e t → findTlli (greRun greDir0 l) t = some e

/-- Nothing keeps a mobile station from getting the TLLI of another one. -/
theorem c38_violated : ¬ C38Statement := by
  intro h
  have := h [.assign noTlli 1 10 [], .assign noTlli 2 20 [], .assign 1 2 10 []] ⟨1, 2, noTlli, 20, []⟩
    (by decide +kernel) 2 (by decide +kernel)
  exact absurd this (by decide +kernel)

/-- Something sent under the TLLI "unassigned" is queued for a mobile station that has another TLLI. -/
theorem c38_violated_unassigned :
    (greUnitdata (greRun greDir0 [.assign noTlli 1 10 []]) noTlli).2 = 0 ∧
    findTlli (greRun greDir0 [.assign noTlli 1 10 []]) 1 = some ⟨0, 1, noTlli, 10, []⟩ := by decide +kernel

/-! ## What holds -/

/-- No two mobile stations are known under the same TLLI. -/
structure Unamb (d : GreDir) : Prop where
  serial : ∀ e ∈ d.es, e.serial < d.made
  nodup  : (d.es.map GreNames.serial).Nodup
  names  : ∀ e ∈ d.es, ∀ f ∈ d.es, ∀ t, Knows e t → Knows f t → e.serial = f.serial
  tlli   : ∀ e ∈ d.es, e.tlli ≠ noTlli

theorem nodup_inj {l : List GreNames} (h : (l.map GreNames.serial).Nodup) {e f : GreNames} (he : e ∈ l)
    (hf : f ∈ l) (hs : e.serial = f.serial) : e = f := by
  induction l with
  | nil => cases he
  | cons a l ih =>
    rw [List.map_cons, List.nodup_cons] at h
    rcases List.mem_cons.1 he with h1 | h1 <;> rcases List.mem_cons.1 hf with h2 | h2
    · rw [h1, h2]
    · exact absurd (List.mem_map.2 ⟨f, h2, by rw [← hs, h1]⟩) h.1
    · exact absurd (List.mem_map.2 ⟨e, h1, by rw [hs, h2]⟩) h.1
    · exact ih h.2 h1 h2

theorem find_iff {d : GreDir} (u : Unamb d) {t : Nat} (ht : t ≠ noTlli) {e : GreNames} :
    findTlli d t = some e ↔ e ∈ d.es ∧ Knows e t := by
  unfold findTlli
  constructor
  · intro h
    refine ⟨List.mem_of_find?_eq_some h, ht, ?_⟩
    have := List.find?_some h
    simpa using this
  · rintro ⟨h1, h2⟩
    cases h : d.es.find? (fun e => e.tlli == t || e.oldTlli == t) with
    | none =>
      rw [List.find?_eq_none] at h
      exact absurd (by simpa using h2.2) (h e h1)
    | some f =>
      have h3 := List.mem_of_find?_eq_some h
      have h4 := List.find?_some h
      have h5 : Knows f t := ⟨ht, by simpa using h4⟩
      rw [nodup_inj u.nodup h3 h1 (u.names f h3 e h1 t h5 h2)]

theorem find_none {d : GreDir} (u : Unamb d) {t : Nat} (ht : t ≠ noTlli) :
    findTlli d t = none ↔ ∀ e ∈ d.es, ¬ Knows e t := by
  constructor
  · intro h e he hk
    rw [(find_iff u ht).2 ⟨he, hk⟩] at h
    cases h
  · intro h
    cases e : findTlli d t with
    | none => rfl
    | some f => exact absurd ((find_iff u ht).1 e).2 (h f ((find_iff u ht).1 e).1)

theorem unamb_alloc {d : GreDir} (u : Unamb d) {t ptmsi : Nat} {imsi : List Nat} (ht : t ≠ noTlli)
    (hn : ∀ e ∈ d.es, ¬ Knows e t) : Unamb ⟨d.made + 1, d.es ++ [⟨d.made, t, noTlli, ptmsi, imsi⟩]⟩ := by
  have kn : ∀ x, Knows ⟨d.made, t, noTlli, ptmsi, imsi⟩ x → x = t := by
    rintro x ⟨h1, h2 | h2⟩
    · exact h2.symm
    · exact absurd h2.symm h1
  refine ⟨?_, ?_, ?_, ?_⟩
  · intro e he
    rcases List.mem_append.1 he with he | he
    · exact Nat.lt_succ_of_lt (u.serial e he)
    · rw [List.mem_singleton] at he; subst he; exact Nat.lt_succ_self _
  · rw [List.map_append, List.nodup_append]
    refine ⟨u.nodup, by simp, ?_⟩
    intro a ha b hb
    simp only [List.map_cons, List.map_nil, List.mem_singleton] at hb
    subst hb
    obtain ⟨e, he, rfl⟩ := List.mem_map.1 ha
    exact Nat.ne_of_lt (u.serial e he)
  · intro e he f hf x h1 h2
    rcases List.mem_append.1 he with he | he <;> rcases List.mem_append.1 hf with hf | hf
    · exact u.names e he f hf x h1 h2
    · rw [List.mem_singleton] at hf; subst hf
      rw [kn x h2] at h1
      exact absurd h1 (hn e he)
    · rw [List.mem_singleton] at he; subst he
      rw [kn x h1] at h2
      exact absurd h2 (hn f hf)
    · rw [List.mem_singleton] at he hf; subst he; subst hf; rfl
  · intro e he
    rcases List.mem_append.1 he with he | he
    · exact u.tlli e he
    · rw [List.mem_singleton] at he; subst he; exact ht

theorem unamb_free {d : GreDir} (u : Unamb d) (s : Nat) : Unamb (greFree d s) := by
  unfold greFree
  refine ⟨?_, ?_, ?_, ?_⟩
  · intro e he; exact u.serial e (List.mem_filter.1 he).1
  · exact u.nodup.sublist (List.filter_sublist.map _)
  · intro e he f hf; exact u.names e (List.mem_filter.1 he).1 f (List.mem_filter.1 hf).1
  · intro e he; exact u.tlli e (List.mem_filter.1 he).1

/-- What an update makes of an entity. -/
def renamed (old new ptmsi : Nat) (imsi : List Nat) (e : GreNames) : GreNames :=
  { e with tlli := new, oldTlli := old, ptmsi := ptmsi, imsi := imsi }

theorem unamb_rename {d : GreDir} (u : Unamb d) {old new ptmsi : Nat} {imsi : List Nat} {e : GreNames}
    (he : e ∈ d.es) (hk : Knows e old) (hn : new ≠ noTlli) (hf : ∀ f ∈ d.es, Knows f new → f.serial = e.serial) :
    Unamb (greSet d e.serial (renamed old new ptmsi imsi)) := by
  have map_serial : ((d.es.map fun x => if x.serial = e.serial then renamed old new ptmsi imsi x else x).map
      GreNames.serial) = d.es.map GreNames.serial := by
    rw [List.map_map]
    apply List.map_congr_left
    intro x _
    dsimp only [Function.comp]
    split <;> rfl
  have kn : ∀ x ∈ d.es, ∀ t, Knows (if x.serial = e.serial then renamed old new ptmsi imsi x else x) t →
      (x.serial = e.serial ∧ (t = old ∨ t = new)) ∨ (x.serial ≠ e.serial ∧ Knows x t) := by
    intro x _ t h
    split at h
    · rename_i hx
      refine .inl ⟨hx, ?_⟩
      rcases h.2 with h | h
      · exact .inr h.symm
      · exact .inl h.symm
    · rename_i hx; exact .inr ⟨hx, h⟩
  unfold greSet
  refine ⟨?_, ?_, ?_, ?_⟩
  · intro y hy
    obtain ⟨x, hx, rfl⟩ := List.mem_map.1 hy
    have := u.serial x hx
    split <;> exact this
  · rw [map_serial]; exact u.nodup
  · intro y hy z hz t h1 h2
    obtain ⟨a, ha, rfl⟩ := List.mem_map.1 hy
    obtain ⟨b, hb, rfl⟩ := List.mem_map.1 hz
    have sa : (if a.serial = e.serial then renamed old new ptmsi imsi a else a).serial = a.serial := by
      split <;> rfl
    have sb : (if b.serial = e.serial then renamed old new ptmsi imsi b else b).serial = b.serial := by
      split <;> rfl
    rw [sa, sb]
    rcases kn a ha t h1 with ⟨p1, p2⟩ | ⟨p1, p2⟩ <;> rcases kn b hb t h2 with ⟨q1, q2⟩ | ⟨q1, q2⟩
    · rw [p1, q1]
    · rcases p2 with rfl | rfl
      · exact absurd (u.names b hb e he _ q2 hk) q1
      · exact absurd (hf b hb q2) q1
    · rcases q2 with rfl | rfl
      · exact absurd (u.names a ha e he _ p2 hk) p1
      · exact absurd (hf a ha p2) p1
    · exact u.names a ha b hb t p2 q2
  · intro y hy
    obtain ⟨x, hx, rfl⟩ := List.mem_map.1 hy
    split
    · exact hn
    · exact u.tlli x hx

/-- The operation does not give a mobile station the TLLI of another one, and does not use the TLLI
"unassigned" as one. -/
def FreshOp (d : GreDir) : GreOp → Prop
  | .assign old new _ _ => old ≠ noTlli → new ≠ noTlli → ∀ e ∈ d.es, Knows e new → Knows e old
  | .unitdata t => t ≠ noTlli

theorem greSet_new {d : GreDir} (u : Unamb d) (t ptmsi : Nat) (imsi : List Nat) :
    greSet (greAlloc d t) d.made (fun e => { e with ptmsi := ptmsi, imsi := imsi }) =
      ⟨d.made + 1, d.es ++ [⟨d.made, t, noTlli, ptmsi, imsi⟩]⟩ := by
  unfold greSet greAlloc
  dsimp only
  rw [List.map_append]
  congr 1
  have : d.es.map (fun e => if e.serial = d.made then { e with ptmsi := ptmsi, imsi := imsi } else e) = d.es := by
    conv => rhs; rw [← List.map_id d.es]
    apply List.map_congr_left
    intro e he
    rw [if_neg (Nat.ne_of_lt (u.serial e he))]
    rfl
  rw [this]
  simp

/-- The effect of GMMRR-ASSIGN.req with two TLLIs. -/
theorem greAssign_update {d : GreDir} (u : Unamb d) {old new ptmsi : Nat} {imsi : List Nat} (ho : old ≠ noTlli)
    (hn : new ≠ noTlli) {e : GreNames} (he : e ∈ d.es) (hk : Knows e old) :
    greAssign d old new ptmsi imsi = (greSet d e.serial (renamed old new ptmsi imsi), none) := by
  unfold greAssign
  rw [if_neg ho, if_neg hn, (find_iff u ho).2 ⟨he, hk⟩]
  rfl

theorem step_unamb {d : GreDir} (u : Unamb d) {op : GreOp} (hf : FreshOp d op) : Unamb (greStep d op) := by
  cases op with
  | assign old new ptmsi imsi =>
    show Unamb (greAssign d old new ptmsi imsi).1
    by_cases ho : old = noTlli
    · unfold greAssign
      rw [if_pos ho]
      by_cases hn : new = noTlli
      · rw [if_pos hn]; exact u
      · rw [if_neg hn]
        cases h : findTlli d new with
        | some e => rw [if_pos (by rfl)]; exact u
        | none =>
          rw [if_neg (by simp)]
          dsimp only
          rw [greSet_new u]
          exact unamb_alloc u hn ((find_none u hn).1 h)
    · by_cases hn : new = noTlli
      · unfold greAssign
        rw [if_neg ho, if_pos hn]
        split
        · exact u
        · exact unamb_free u _
      · cases h : findTlli d old with
        | none =>
          unfold greAssign
          rw [if_neg ho, if_neg hn, h]
          exact u
        | some e =>
          obtain ⟨he, hk⟩ := (find_iff u ho).1 h
          rw [greAssign_update u ho hn he hk]
          exact unamb_rename u he hk hn fun f hf' hk' => u.names f hf' e he old (hf ho hn f hf' hk') hk
  | unitdata t =>
    show Unamb (greUnitdata d t).1
    unfold greUnitdata
    split
    · exact u
    · rename_i h
      exact unamb_alloc (imsi := []) u hf ((find_none u hf).1 h)

/-- A history in which no mobile station is given the TLLI of another one. -/
def FreshRun : GreDir → List GreOp → Prop
  | _, [] => True
  | d, op :: l => FreshOp d op ∧ FreshRun (greStep d op) l

instance (d : GreDir) (op : GreOp) : Decidable (FreshOp d op) := by
  cases op <;> (unfold FreshOp; infer_instance)

instance instDecidableFreshRun : (d : GreDir) → (l : List GreOp) → Decidable (FreshRun d l)
  | _, [] => isTrue trivial
  | d, op :: l =>
    have : Decidable (FreshRun (greStep d op) l) := instDecidableFreshRun (greStep d op) l
    inferInstanceAs (Decidable (_ ∧ _))

theorem run_unamb : ∀ (l : List GreOp) (d : GreDir), Unamb d → FreshRun d l → Unamb (greRun d l)
  | [], _, u, _ => u
  | op :: l, d, u, h => run_unamb l (greStep d op) (step_unamb u h.1) h.2

theorem unamb0 : Unamb greDir0 :=
  ⟨fun _ he => absurd he List.not_mem_nil, List.nodup_nil, fun _ he => absurd he List.not_mem_nil,
    fun _ he => absurd he List.not_mem_nil⟩

/-- C38, what holds: as long as no mobile station is given the TLLI of another one, each is found by the
TLLIs it is known under, and nothing else is found. -/
theorem c38_found_partial (l : List GreOp) (h : FreshRun greDir0 l) (t : Nat) (ht : t ≠ noTlli) (e : GreNames) :
    findTlli (greRun greDir0 l) t = some e ↔ e ∈ (greRun greDir0 l).es ∧ Knows e t :=
  find_iff (run_unamb l _ unamb0 h) ht

/-- C38, what holds: the three forms of GMMRR-ASSIGN.req do what they say, and nothing to other mobile
stations. -/
theorem c38_assign_partial {d : GreDir} (u : Unamb d) (ptmsi : Nat) (imsi : List Nat) :
    (∀ new, new ≠ noTlli → (∀ e ∈ d.es, ¬ Knows e new) →
      (greAssign d noTlli new ptmsi imsi).2 = none ∧
      (greAssign d noTlli new ptmsi imsi).1.es = d.es ++ [⟨d.made, new, noTlli, ptmsi, imsi⟩]) ∧
    (∀ e ∈ d.es, ∀ old new, Knows e old → new ≠ noTlli → (∀ f ∈ d.es, Knows f new → Knows f old) →
      (greAssign d old new ptmsi imsi).2 = none ∧
      findTlli (greAssign d old new ptmsi imsi).1 new = some ⟨e.serial, new, old, ptmsi, imsi⟩ ∧
      findTlli (greAssign d old new ptmsi imsi).1 old = some ⟨e.serial, new, old, ptmsi, imsi⟩ ∧
      ∀ f ∈ d.es, f.serial ≠ e.serial → f ∈ (greAssign d old new ptmsi imsi).1.es) ∧
    (∀ e ∈ d.es, ∀ old, Knows e old →
      (greAssign d old noTlli ptmsi imsi).2 = none ∧
      (∀ t, Knows e t → findTlli (greAssign d old noTlli ptmsi imsi).1 t = none) ∧
      ∀ f, f ∈ (greAssign d old noTlli ptmsi imsi).1.es ↔ f ∈ d.es ∧ f.serial ≠ e.serial) := by
  refine ⟨?_, ?_, ?_⟩
  · intro new hn hk
    unfold greAssign
    rw [if_pos rfl, if_neg hn, (find_none u hn).2 hk, if_neg (by simp)]
    dsimp only
    rw [greSet_new u]
    exact ⟨rfl, rfl⟩
  · intro e he old new hk hn hf
    rw [greAssign_update u hk.1 hn he hk]
    have u' := unamb_rename (ptmsi := ptmsi) (imsi := imsi) u he hk hn
      fun f hf' hk' => u.names f hf' e he old (hf f hf' hk') hk
    have hm : (⟨e.serial, new, old, ptmsi, imsi⟩ : GreNames) ∈ (greSet d e.serial (renamed old new ptmsi imsi)).es := by
      refine List.mem_map.2 ⟨e, he, ?_⟩
      rw [if_pos rfl]
      rfl
    refine ⟨rfl, (find_iff u' hn).2 ⟨hm, hn, .inl rfl⟩, (find_iff u' hk.1).2 ⟨hm, hk.1, .inr rfl⟩, ?_⟩
    intro f hf' hs
    exact List.mem_map.2 ⟨f, hf', if_neg hs⟩
  · intro e he old hk
    have e1 : greAssign d old noTlli ptmsi imsi = (greFree d e.serial, none) := by
      unfold greAssign
      rw [if_neg hk.1, if_pos rfl, (find_iff u hk.1).2 ⟨he, hk⟩]
    rw [e1]
    refine ⟨rfl, ?_, ?_⟩
    · intro t ht
      refine (find_none (unamb_free u _) ht.1).2 ?_
      intro f hf hkf
      obtain ⟨h1, h2⟩ := List.mem_filter.1 hf
      have := u.names f h1 e he t hkf ht
      simp [this] at h2
    · intro f
      unfold greFree
      rw [List.mem_filter]
      simp

/-- A history that meets the hypothesis: two mobile stations, a change and a release. -/
example : FreshRun greDir0 [.unitdata 0x80000001, .assign 0x80000001 0xc0000001 1 [2], .assign noTlli 0xc0000002 2 [],
    .assign 0xc0000001 0xc0000003 3 [2], .assign 0xc0000002 noTlli 0 []] ∧
    (greRun greDir0 [.unitdata 0x80000001, .assign 0x80000001 0xc0000001 1 [2], .assign noTlli 0xc0000002 2 [],
    .assign 0xc0000001 0xc0000003 3 [2], .assign 0xc0000002 noTlli 0 []]).es =
      [⟨0, 0xc0000003, 0xc0000001, 3, [2]⟩] := by
  decide +kernel

end Verif.Props
