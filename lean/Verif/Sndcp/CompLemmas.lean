import Verif.Sndcp.Comp
import Verif.Sndcp.XidLemmas
/-!
# Lemmas about SNDCP compression entities
-/
namespace Verif.Sndcp
open Verif.Spec.SndcpXid

/-! ## Lists of entities -/

/-- What holds of each of the two lists: only algorithm 0 of the right class, an NSAPI at least, no
number twice. -/
structure ListOk (c : CClass) (l : List CompEnt) : Prop where
  ents : ∀ e ∈ l, e.cls = c ∧ e.algo = 0 ∧ e.nsapis ≠ []
  nodup : (l.map (·.entity)).Nodup

structure CompsOk (s : Comps) : Prop where
  proto : ListOk .proto s.proto
  data : ListOk .data s.data

/-- The entity of a number. -/
def entOf (l : List CompEnt) (n : Nat) : Option CompEnt := l.find? (fun e => e.entity = n)

theorem entOf_nil (n : Nat) : entOf [] n = none := rfl

theorem entOf_cons (e : CompEnt) (l : List CompEnt) (n : Nat) :
    entOf (e :: l) n = if e.entity = n then some e else entOf l n := by
  unfold entOf
  rw [List.find?_cons]
  by_cases h : e.entity = n
  · simp [h]
  · simp [h]

theorem entOf_none {l : List CompEnt} {n : Nat} (h : n ∉ l.map (·.entity)) : entOf l n = none := by
  unfold entOf
  rw [List.find?_eq_none]
  intro e he
  simp only [decide_eq_true_eq]
  intro hn
  exact h (List.mem_map.mpr ⟨e, he, hn⟩)

/-- The list without the entity of a number. -/
def without (l : List CompEnt) (n : Nat) : List CompEnt := l.eraseP (fun e => e.entity = n)

theorem without_cons (e : CompEnt) (l : List CompEnt) (n : Nat) :
    without (e :: l) n = if e.entity = n then l else e :: without l n := by
  unfold without
  rw [List.eraseP_cons]
  by_cases h : e.entity = n
  · simp [h]
  · simp [h]

theorem without_ok {c : CClass} {l : List CompEnt} (h : ListOk c l) (n : Nat) :
    ListOk c (without l n) := by
  refine ⟨fun e he => h.ents e (List.mem_of_mem_eraseP he), ?_⟩
  exact h.nodup.sublist (List.Sublist.map _ List.eraseP_sublist)

theorem entOf_without : ∀ {l : List CompEnt}, (l.map (·.entity)).Nodup → ∀ (n m : Nat),
    entOf (without l n) m = if m = n then none else entOf l m
  | [], _, n, m => by
    show entOf [] m = _
    rw [entOf_nil]
    split <;> rfl
  | e :: l, h, n, m => by
    rw [List.map_cons, List.nodup_cons] at h
    rw [without_cons]
    by_cases he : e.entity = n
    · rw [if_pos he]
      by_cases hm : m = n
      · rw [if_pos hm, hm]
        exact entOf_none (by rw [← he]; exact h.1)
      · rw [if_neg hm, entOf_cons, if_neg (by omega)]
    · rw [if_neg he, entOf_cons, entOf_cons, entOf_without h.2 n m]
      by_cases hm : m = n
      · rw [if_pos hm, if_pos hm, if_neg (by omega)]
      · rw [if_neg hm, if_neg hm]

theorem compDelete_ok {c : CClass} {l : List CompEnt} (h : ListOk c l) (n : Nat) :
    compDelete l n = .ok (without l n) := by
  rw [compDelete]
  cases hf : l.find? (fun e => e.entity = n) with
  | none =>
    simp only
    have : without l n = l := List.eraseP_of_forall_not (by
      intro e he
      have := List.find?_eq_none.mp hf e he
      simpa using this)
    rw [this]
  | some e =>
    simp only
    have he := h.ents e (List.mem_of_find?_eq_some hf)
    rw [if_neg (fun hh => hh.2 he.2.1)]
    rfl

/-! ## Fields as the decoder makes them -/

/-- The parameters belong to the algorithm, and NSAPIs are those for user data. -/
def FieldOk (f : CompField) : Prop :=
  ∀ q, f.params = some q → kindOf q.kind.cls f.algo = some q.kind

theorem kindOf_cls {c : CClass} {n : Nat} {k : Kind} (h : kindOf c n = some k) : k.cls = c := by
  unfold kindOf at h
  split at h <;> first | (cases h; rfl) | cases h

theorem decParams_kind {k : Kind} {b : Octets} {start len : Nat} {q : Params} {n : Nat}
    (h : decParams k b start len = .ok (q, n)) : q.kind = k := by
  rw [decParams] at h
  simp only at h
  cases h1 : decNsapis b start len with
  | err e => rw [h1] at h; cases h
  | ub f => rw [h1] at h; cases h
  | ok r =>
    rw [h1, Res.bind_ok] at h
    cases r with
    | none =>
      simp only at h
      injection h with h
      injection h with h _
      rw [← h]
    | some ns =>
      simp only at h
      cases h2 : decVals b start len (decSpecs k) 2 [] with
      | err e => rw [h2] at h; cases h
      | ub f => rw [h2] at h; cases h
      | ok r =>
        obtain ⟨vs, cnt⟩ := r
        rw [h2, Res.bind_ok] at h
        simp only at h
        split at h
        · cases h3 : decProfiles profileSpec b start len 16 cnt [] with
          | err e => rw [h3] at h; cases h
          | ub f => rw [h3] at h; cases h
          | ok r =>
            rw [h3, Res.bind_ok] at h
            injection h with h
            injection h with h _
            rw [← h]
        · injection h with h
          injection h with h _
          rw [← h]

theorem decFieldBody_fieldOk {b : Octets} {pos hdr entity algo : Nat} {p : Bool} {c : CClass}
    {f : CompField} {n : Nat} (h : decFieldBody b pos hdr p entity algo c = .ok (f, n)) :
    FieldOk f := by
  rw [decFieldBody] at h
  cases h0 : rd b pos with
  | err e => rw [h0] at h; cases h
  | ub f => rw [h0] at h; cases h
  | ok len =>
    rw [h0, Res.bind_ok] at h
    cases h1 : decCompValues b (pos + 1) p c algo with
    | err e => rw [h1] at h; cases h
    | ub f => rw [h1] at h; cases h
    | ok r =>
      obtain ⟨comp, rc⟩ := r
      rw [h1, Res.bind_ok] at h
      simp only at h
      cases h2 : decAlgoParams b (pos + 1 + rc) c algo (u32Sub len rc) with
      | err e => rw [h2] at h; cases h
      | ub f => rw [h2] at h; cases h
      | ok r =>
        obtain ⟨q, m⟩ := r
        rw [h2, Res.bind_ok] at h
        simp only at h
        injection h with h
        injection h with h _
        subst h
        intro q' hq'
        simp only at hq'
        subst hq'
        rw [decAlgoParams] at h2
        cases hk : kindOf c algo with
        | none =>
          rw [hk] at h2
          simp only at h2
          split at h2
          · cases h2
          · injection h2 with h2
            injection h2 with h2 _
            cases h2
        | some k =>
          rw [hk] at h2
          simp only at h2
          cases h3 : decParams k b (pos + 1 + rc) (u32Sub len rc) with
          | err e => rw [h3] at h2; cases h2
          | ub f => rw [h3] at h2; cases h2
          | ok r =>
            obtain ⟨q2, m2⟩ := r
            rw [h3, Res.bind_ok] at h2
            simp only at h2
            injection h2 with h2
            injection h2 with h2 _
            injection h2 with h2
            subst h2
            rw [decParams_kind h3, kindOf_cls hk, hk]

theorem decodeCompField_fieldOk {b : Octets} {pos avail : Nat} {lt : Option (List AlgoEntry)}
    {c : CClass} {f : CompField} {n : Nat} (h : decodeCompField b pos avail lt c = .ok (f, n)) :
    FieldOk f := by
  rw [decodeCompField] at h
  split at h
  · cases h
  · cases h0 : rd b pos with
    | err e => rw [h0] at h; cases h
    | ub f => rw [h0] at h; cases h
    | ok hd =>
      rw [h0, Res.bind_ok] at h
      split at h
      · cases h1 : rd b (pos + 1) with
        | err e => rw [h1] at h; cases h
        | ub f => rw [h1] at h; cases h
        | ok a =>
          rw [h1, Res.bind_ok] at h
          exact decFieldBody_fieldOk h
      · exact decFieldBody_fieldOk h

theorem decodeBlock_fieldOk {b : Octets} {pos tagLen : Nat} {lt : Option (List AlgoEntry)}
    {c : CClass} : ∀ {left cnt : Nat} {acc fs : List CompField}, (∀ f ∈ acc, FieldOk f) →
      decodeBlock b pos tagLen lt c left cnt acc = .ok fs → ∀ f ∈ fs, FieldOk f
  | 0, _, _, _, _, h => by cases h
  | left + 1, cnt, acc, fs, ha, h => by
    rw [decodeBlock] at h
    cases h0 : decodeCompField b (pos + cnt) (tagLen - cnt) lt c with
    | err e => rw [h0] at h; cases h
    | ub f => rw [h0] at h; cases h
    | ok r =>
      obtain ⟨f, n⟩ := r
      rw [h0] at h
      simp only at h
      have ha' : ∀ g ∈ f :: acc, FieldOk g := by
        intro g hg
        rcases List.mem_cons.mp hg with hg | hg
        · rw [hg]; exact decodeCompField_fieldOk h0
        · exact ha g hg
      split at h
      · exact decodeBlock_fieldOk ha' h
      · injection h with h
        rw [← h]
        exact ha'

theorem tlvFields_fieldOk {b : Octets} {lt : Option (List AlgoEntry)} {acc fs : List CompField}
    {t l v : Nat} (ha : ∀ f ∈ acc, FieldOk f) (h : tlvFields b lt acc t l v = .ok fs) :
    ∀ f ∈ fs, FieldOk f := by
  rw [tlvFields] at h
  split at h
  · exact decodeBlock_fieldOk ha h
  · split at h
    · exact decodeBlock_fieldOk ha h
    · injection h with h
      rw [← h]
      exact ha

theorem decodeXid_fieldOk {b : Octets} {w : Bool} {lt : Option (List AlgoEntry)} :
    ∀ {left pos : Nat} {ver v : Int} {acc fs : List CompField}, (∀ f ∈ acc, FieldOk f) →
      decodeXid b w lt left pos ver acc = .ok (v, fs) → ∀ f ∈ fs, FieldOk f
  | 0, _, _, _, _, _, _, h => by cases h
  | left + 1, pos, ver, v, acc, fs, ha, h => by
    rw [decodeXid] at h
    cases h0 : tlvParseOne b pos with
    | err e => rw [h0] at h; cases h
    | ub f => rw [h0] at h; cases h
    | ok r =>
      obtain ⟨t, l, vp⟩ := r
      rw [h0] at h
      simp only at h
      cases h1 : tlvVersion b w ver t vp with
      | err e => rw [h1] at h; cases h
      | ub f => rw [h1] at h; cases h
      | ok ver' =>
        rw [h1] at h
        simp only at h
        cases h2 : tlvFields b lt acc t l vp with
        | err e => rw [h2] at h; cases h
        | ub f => rw [h2] at h; cases h
        | ok acc' =>
          rw [h2] at h
          simp only at h
          have ha' := tlvFields_fieldOk ha h2
          split at h
          · injection h with h
            injection h with _ h
            rw [← h]
            exact ha'
          · exact decodeXid_fieldOk ha' h

theorem completeParams_kind {d s : Option Params} {q : Option Params}
    (h : completeParams d s = .ok q) : ∀ x, q = some x → ∃ y, d = some y ∧ y.kind = x.kind := by
  intro x hx
  subst hx
  cases d with
  | none => cases s <;> cases h
  | some y =>
    cases s with
    | none => cases h
    | some z =>
      rw [completeParams] at h
      split at h
      · injection h with h
        injection h with h
        exact ⟨y, rfl, by rw [← h]⟩
      · cases h

theorem completeField_step (f : CompField) : ∀ (req : List CompField) (st : CompField × Bool),
    FieldOk st.1 →
    FieldOk (req.foldl (fun st s =>
      if s.entity = f.entity then
        let g := if s.comp.length > 0 then { st.1 with comp := s.comp } else st.1
        match completeParams g.params s.params with
        | .ok q => ({ g with params := q }, true)
        | _ => (g, false)
      else st) st).1
  | [], st, h => h
  | s :: req, st, h => by
    rw [List.foldl_cons]
    refine completeField_step f req _ ?_
    by_cases he : s.entity = f.entity
    · rw [if_pos he]
      have hg : FieldOk (if s.comp.length > 0 then { st.1 with comp := s.comp } else st.1) := by
        split
        · exact h
        · exact h
      have hgen : ∀ g : CompField, FieldOk g →
          FieldOk (match completeParams g.params s.params with
            | .ok q => ({ g with params := q }, true)
            | _ => (g, false) : CompField × Bool).1 := by
        intro g hg
        cases hc : completeParams g.params s.params with
        | ok q =>
          intro x hx
          obtain ⟨y, hy, hk⟩ := completeParams_kind hc x hx
          have := hg y hy
          rw [hk] at this
          exact this
        | err e => exact hg
        | ub f => exact hg
      exact hgen _ hg
    · rw [if_neg he]
      exact h

theorem completeFields_fieldOk {req : List CompField} : ∀ {fs gs : List CompField},
    (∀ f ∈ fs, FieldOk f) → completeFields req fs = .ok gs → ∀ g ∈ gs, FieldOk g
  | [], gs, _, h => by
    injection h with h
    subst h
    intro g hg
    cases hg
  | f :: fs, gs, ha, h => by
    rw [completeFields] at h
    split at h
    · cases h1 : completeFields req fs with
      | err e => rw [h1] at h; cases h
      | ub x => rw [h1] at h; cases h
      | ok r =>
        rw [h1] at h
        simp only at h
        injection h with h
        subst h
        intro g hg
        rcases List.mem_cons.mp hg with hg | hg
        · rw [hg]
          exact completeField_step f req (f, true) (ha f List.mem_cons_self)
        · exact completeFields_fieldOk (fun x hx => ha x (List.mem_cons_of_mem _ hx)) h1 g hg
    · cases h

theorem parseXid_fieldOk {w : Bool} {b : Octets} {req : Option (List CompField)} {v : Int}
    {fs : List CompField} (h : parseXid w b req = .ok (v, fs)) : ∀ f ∈ fs, FieldOk f := by
  unfold parseXid at h
  have hnil : ∀ f ∈ ([] : List CompField), FieldOk f := fun f hf => by cases hf
  split at h
  · cases h
  · cases req with
    | none => exact decodeXid_fieldOk hnil h
    | some r =>
      simp only at h
      split at h
      · cases h
      · cases h0 : decodeXid b w (some (fillTable r)) 3 0 (-1) [] with
        | err e => rw [h0] at h; cases h
        | ub x => rw [h0] at h; cases h
        | ok p =>
          obtain ⟨v', fs'⟩ := p
          rw [h0] at h
          simp only at h
          cases h1 : completeFields r fs' with
          | err e => rw [h1] at h; cases h
          | ub x => rw [h1] at h; cases h
          | ok gs =>
            rw [h1] at h
            simp only at h
            injection h with h
            injection h with _ h
            subst h
            exact completeFields_fieldOk (decodeXid_fieldOk hnil h0) h1

/-! ## What a field does -/

/-- Whether a field is accepted. -/
def accepted (cfg : CompCfg) (f : CompField) : Bool :=
  match f.params with
  | some q => (match q.kind with
    | .rfc1144 => cfg.rfc1144 && decide (q.nsapis ≠ [])
    | .v42bis => cfg.v42bis && decide (q.nsapis ≠ [])
    | _ => false)
  | none => false

/-- The entity an accepted field stands for. -/
def entityOf (f : CompField) : CompEnt :=
  match f.params with
  | some q => { entity := f.entity, nsapis := q.nsapis, comp := f.comp, algo := f.algo,
                cls := q.kind.cls, works := initWorks q }
  | none => { entity := f.entity, nsapis := [], comp := f.comp, algo := f.algo, cls := .proto,
              works := false }

/-- The list of the field's class afterwards. -/
def afterField (cfg : CompCfg) (l : List CompEnt) (f : CompField) : List CompEnt :=
  if accepted cfg f then entityOf f :: without l f.entity else without l f.entity

/-- The field as it is answered. -/
def answerOf (cfg : CompCfg) (f : CompField) : CompField :=
  if accepted cfg f then { f with p := false } else { f with p := false }.refused

theorem nsapisOf_ok {f : CompField} {q : Params} (hq : f.params = some q) :
    nsapisOf f q.kind = .ok q.nsapis := by
  rw [nsapisOf, hq]
  simp

theorem kind_of_algo {k : Kind} {n : Nat} (h : kindOf k.cls n = some k) :
    (k = .rfc1144 ∧ n = 0) ∨ (k = .rfc2507 ∧ n = 1) ∨ (k = .rohc ∧ n = 2) ∨
      (k = .v42bis ∧ n = 0) ∨ (k = .v44 ∧ n = 1) := by
  cases k <;> simp only [Kind.cls] at h <;>
    (unfold kindOf at h; split at h <;> simp_all)

theorem entityOf_p (f : CompField) (p : Bool) : entityOf { f with p := p } = entityOf f := rfl

theorem afterField_ok {cfg : CompCfg} {c : CClass} {l : List CompEnt} (h : ListOk c l)
    {f : CompField} {q : Params} (hf : FieldOk f) (hq : f.params = some q) (hc : q.kind.cls = c) :
    ListOk c (afterField cfg l f) := by
  unfold afterField
  split
  · rename_i hacc
    have hw := without_ok h f.entity
    have hen : entityOf f = ⟨f.entity, q.nsapis, f.comp, f.algo, q.kind.cls, initWorks q⟩ := by
      rw [entityOf, hq]
    have hk := kind_of_algo (hf q hq)
    have hacc' : f.algo = 0 ∧ q.nsapis ≠ [] := by
      rw [accepted, hq] at hacc
      simp only at hacc
      rcases hk with ⟨hk, hn⟩ | ⟨hk, hn⟩ | ⟨hk, hn⟩ | ⟨hk, hn⟩ | ⟨hk, hn⟩
      · rw [hk] at hacc
        simp at hacc
        exact ⟨hn, hacc.2⟩
      · rw [hk] at hacc; simp at hacc
      · rw [hk] at hacc; simp at hacc
      · rw [hk] at hacc
        simp at hacc
        exact ⟨hn, hacc.2⟩
      · rw [hk] at hacc; simp at hacc
    refine ⟨?_, ?_⟩
    · intro e he
      rcases List.mem_cons.mp he with he | he
      · rw [he, hen]
        exact ⟨hc, hacc'.1, hacc'.2⟩
      · exact hw.ents e he
    · rw [List.map_cons, List.nodup_cons]
      refine ⟨?_, hw.nodup⟩
      intro hm
      obtain ⟨e, he, hee⟩ := List.mem_map.mp hm
      have hn : e.entity = f.entity := by rw [hee, hen]
      have : entOf (without l f.entity) f.entity = none := by
        rw [entOf_without h.nodup, if_pos rfl]
      have := List.find?_eq_none.mp this e he
      simp [hn] at this
  · exact without_ok h f.entity

theorem acceptOrRefuse_ok {cfg : CompCfg} {c : CClass} {l : List CompEnt} (h : ListOk c l)
    {f : CompField} {q : Params} {acc : Bool} (hq : f.params = some q) (h0 : f.algo = 0)
    (hk : q.kind = .rfc1144 ∨ q.kind = .v42bis) (hp : f.p = false)
    (hacc : accepted cfg f = (acc && decide (q.nsapis ≠ []))) :
    acceptOrRefuse acc q.kind l f = .ok (afterField cfg l f, answerOf cfg f) := by
  have hfp : { f with p := false } = f := by
    rw [← hp]
  rw [acceptOrRefuse, nsapisOf_ok hq, Res.bind_ok]
  by_cases hh : acc = true ∧ q.nsapis ≠ []
  · have ha : accepted cfg f = true := by
      rw [hacc, hh.1, decide_eq_true hh.2]
      rfl
    rw [if_pos hh, compAdd, compDelete_ok h, Res.bind_ok, compCreate, hq]
    simp only
    rw [if_neg hh.2, if_neg (by
      rintro (hx | hx)
      · exact hx h0
      · rcases hk with hk | hk
        · exact hx.1 hk
        · exact hx.2 hk), Res.bind_ok, Res.bind_ok, afterField, if_pos ha, answerOf, if_pos ha, hfp]
    rw [entityOf, hq]
  · have ha : ¬ (accepted cfg f = true) := by
      rw [hacc]
      simpa using hh
    rw [if_neg hh, compDelete_ok h, Res.bind_ok, afterField, if_neg ha, answerOf, if_neg ha, hfp]

theorem refuse_ok {cfg : CompCfg} {c : CClass} {l : List CompEnt} (h : ListOk c l)
    {f : CompField} {q : Params} (hq : f.params = some q) (hp : f.p = false)
    (hacc : accepted cfg f = false) :
    refuse q.kind l f = .ok (afterField cfg l f, answerOf cfg f) := by
  have hfp : { f with p := false } = f := by
    rw [← hp]
  have ha : ¬ (accepted cfg f = true) := by rw [hacc]; simp
  rw [refuse, nsapisOf_ok hq, Res.bind_ok, compDelete_ok h, Res.bind_ok, afterField, if_neg ha,
    answerOf, if_neg ha, hfp]

/-- A header compression field with parameters. -/
theorem handleField_proto {cfg : CompCfg} {s : Comps} (h : CompsOk s) {f : CompField}
    (hf : FieldOk f) {q : Params} (hq : f.params = some q) (hc : q.kind.cls = .proto) :
    handleField cfg s f = .ok ({ s with proto := afterField cfg s.proto f }, answerOf cfg f) := by
  have hcls : f.cls = some .proto := by rw [CompField.cls, hq, ← hc]; rfl
  have hq' : ({ f with p := false } : CompField).params = some q := hq
  rw [handleField, hcls]
  simp only
  have main : handlePcomp cfg s.proto f = .ok (afterField cfg s.proto f, answerOf cfg f) := by
    rcases kind_of_algo (hf q hq) with ⟨hk, hn⟩ | ⟨hk, hn⟩ | ⟨hk, hn⟩ | ⟨hk, hn⟩ | ⟨hk, hn⟩
    · have := acceptOrRefuse_ok (cfg := cfg) (acc := cfg.rfc1144) h.proto hq' hn (.inl hk) rfl
        (by rw [accepted, hq']; simp only [hk])
      rw [hk] at this
      obtain ⟨p, ent, algo, comp, params⟩ := f
      simp only at hn
      subst hn
      exact this
    · have := refuse_ok (cfg := cfg) h.proto hq' rfl (by rw [accepted, hq']; simp only [hk])
      rw [hk] at this
      obtain ⟨p, ent, algo, comp, params⟩ := f
      simp only at hn
      subst hn
      exact this
    · have := refuse_ok (cfg := cfg) h.proto hq' rfl (by rw [accepted, hq']; simp only [hk])
      rw [hk] at this
      obtain ⟨p, ent, algo, comp, params⟩ := f
      simp only at hn
      subst hn
      exact this
    · rw [hk] at hc; cases hc
    · rw [hk] at hc; cases hc
  rw [main]
  rfl

/-- A data compression field with parameters. -/
theorem handleField_data {cfg : CompCfg} {s : Comps} (h : CompsOk s) {f : CompField}
    (hf : FieldOk f) {q : Params} (hq : f.params = some q) (hc : q.kind.cls = .data) :
    handleField cfg s f = .ok ({ s with data := afterField cfg s.data f }, answerOf cfg f) := by
  have hcls : f.cls = some .data := by rw [CompField.cls, hq, ← hc]; rfl
  have hq' : ({ f with p := false } : CompField).params = some q := hq
  rw [handleField, hcls]
  simp only
  have main : handleDcomp cfg s.data f = .ok (afterField cfg s.data f, answerOf cfg f) := by
    rcases kind_of_algo (hf q hq) with ⟨hk, hn⟩ | ⟨hk, hn⟩ | ⟨hk, hn⟩ | ⟨hk, hn⟩ | ⟨hk, hn⟩
    · rw [hk] at hc; cases hc
    · rw [hk] at hc; cases hc
    · rw [hk] at hc; cases hc
    · have := acceptOrRefuse_ok (cfg := cfg) (acc := cfg.v42bis) h.data hq' hn (.inr hk) rfl
        (by rw [accepted, hq']; simp only [hk])
      rw [hk] at this
      obtain ⟨p, ent, algo, comp, params⟩ := f
      simp only at hn
      subst hn
      exact this
    · have := refuse_ok (cfg := cfg) h.data hq' rfl (by rw [accepted, hq']; simp only [hk])
      rw [hk] at this
      obtain ⟨p, ent, algo, comp, params⟩ := f
      simp only at hn
      subst hn
      exact this
  rw [main]
  rfl

/-- A field without parameters. -/
theorem handleField_none {cfg : CompCfg} {s : Comps} (h : CompsOk s) {f : CompField}
    (hq : f.params = none) :
    handleField cfg s f =
      .ok ({ proto := without s.proto f.entity, data := without s.data f.entity }, f) := by
  have hcls : f.cls = none := by rw [CompField.cls, hq]; rfl
  rw [handleField, hcls]
  simp only
  rw [compDelete_ok h.proto, Res.bind_ok, compDelete_ok h.data, Res.bind_ok]

/-- Handling any decoded field neither aborts nor breaks the lists. -/
theorem handleField_ok {cfg : CompCfg} {s : Comps} (h : CompsOk s) {f : CompField}
    (hf : FieldOk f) : ∃ s' g, handleField cfg s f = .ok (s', g) ∧ CompsOk s' := by
  cases hq : f.params with
  | none =>
    exact ⟨_, _, handleField_none h hq, ⟨without_ok h.proto _, without_ok h.data _⟩⟩
  | some q =>
    cases hc : q.kind.cls with
    | proto =>
      exact ⟨_, _, handleField_proto h hf hq hc, ⟨afterField_ok h.proto hf hq hc, h.data⟩⟩
    | data =>
      exact ⟨_, _, handleField_data h hf hq hc, ⟨h.proto, afterField_ok h.data hf hq hc⟩⟩

theorem handleFields_ok {cfg : CompCfg} : ∀ {fs : List CompField} {s : Comps}, CompsOk s →
    (∀ f ∈ fs, FieldOk f) → ∃ s' gs, handleFields cfg s fs = .ok (s', gs) ∧ CompsOk s'
  | [], s, h, _ => ⟨s, [], rfl, h⟩
  | f :: fs, s, h, ha => by
    obtain ⟨s1, g, e1, h1⟩ := handleField_ok (cfg := cfg) h (ha f List.mem_cons_self)
    obtain ⟨s2, gs, e2, h2⟩ := handleFields_ok (cfg := cfg) h1
      (fun x hx => ha x (List.mem_cons_of_mem _ hx))
    refine ⟨s2, g :: gs, ?_, h2⟩
    rw [handleFields, e1]
    simp only
    rw [e2]

/-! ## Several fields -/

theorem handleFields_append {cfg : CompCfg} : ∀ {fs gs : List CompField} {s s1 s2 : Comps}
    {as bs : List CompField}, handleFields cfg s fs = .ok (s1, as) →
    handleFields cfg s1 gs = .ok (s2, bs) → handleFields cfg s (fs ++ gs) = .ok (s2, as ++ bs)
  | [], gs, s, s1, s2, as, bs, h1, h2 => by
    injection h1 with h1
    injection h1 with h1 h1'
    subst h1
    subst h1'
    exact h2
  | f :: fs, gs, s, s1, s2, as, bs, h1, h2 => by
    rw [handleFields] at h1
    cases h0 : handleField cfg s f with
    | err e => rw [h0] at h1; cases h1
    | ub x => rw [h0] at h1; cases h1
    | ok r =>
      obtain ⟨s', g⟩ := r
      rw [h0] at h1
      simp only at h1
      cases h3 : handleFields cfg s' fs with
      | err e => rw [h3] at h1; cases h1
      | ub x => rw [h3] at h1; cases h1
      | ok r =>
        obtain ⟨s'', gs'⟩ := r
        rw [h3] at h1
        simp only at h1
        injection h1 with h1
        injection h1 with h1 h1'
        subst h1
        subst h1'
        rw [List.cons_append, handleFields, h0]
        simp only
        rw [handleFields_append h3 h2]
        rfl

/-- Fields of a class with their parameters. -/
def Full (c : CClass) (f : CompField) : Prop :=
  FieldOk f ∧ ∃ q, f.params = some q ∧ q.kind.cls = c

theorem foldl_ok {cfg : CompCfg} {c : CClass} : ∀ {fs : List CompField} {l : List CompEnt},
    ListOk c l → (∀ f ∈ fs, Full c f) → ListOk c (fs.foldl (afterField cfg) l)
  | [], _, h, _ => h
  | f :: fs, l, h, ha => by
    obtain ⟨hf, q, hq, hc⟩ := ha f List.mem_cons_self
    rw [List.foldl_cons]
    exact foldl_ok (afterField_ok h hf hq hc) (fun x hx => ha x (List.mem_cons_of_mem _ hx))

theorem handleFields_proto {cfg : CompCfg} : ∀ {fs : List CompField} {s : Comps}, CompsOk s →
    (∀ f ∈ fs, Full .proto f) →
    handleFields cfg s fs =
      .ok ({ s with proto := fs.foldl (afterField cfg) s.proto }, fs.map (answerOf cfg))
  | [], s, _, _ => rfl
  | f :: fs, s, h, ha => by
    obtain ⟨hf, q, hq, hc⟩ := ha f List.mem_cons_self
    rw [handleFields, handleField_proto h hf hq hc]
    simp only
    rw [handleFields_proto (s := { s with proto := afterField cfg s.proto f })
      ⟨afterField_ok h.proto hf hq hc, h.data⟩ (fun x hx => ha x (List.mem_cons_of_mem _ hx))]
    rfl

theorem handleFields_data {cfg : CompCfg} : ∀ {fs : List CompField} {s : Comps}, CompsOk s →
    (∀ f ∈ fs, Full .data f) →
    handleFields cfg s fs =
      .ok ({ s with data := fs.foldl (afterField cfg) s.data }, fs.map (answerOf cfg))
  | [], s, _, _ => rfl
  | f :: fs, s, h, ha => by
    obtain ⟨hf, q, hq, hc⟩ := ha f List.mem_cons_self
    rw [handleFields, handleField_data h hf hq hc]
    simp only
    rw [handleFields_data (s := { s with data := afterField cfg s.data f })
      ⟨h.proto, afterField_ok h.data hf hq hc⟩ (fun x hx => ha x (List.mem_cons_of_mem _ hx))]
    rfl

theorem entOf_afterField {cfg : CompCfg} {c : CClass} {l : List CompEnt} (h : ListOk c l)
    (f : CompField) (n : Nat) :
    entOf (afterField cfg l f) n =
      if n = f.entity then (if accepted cfg f then some (entityOf f) else none) else entOf l n := by
  have hent : (entityOf f).entity = f.entity := by
    unfold entityOf
    split <;> rfl
  unfold afterField
  split
  · rw [entOf_cons, hent, entOf_without h.nodup]
    by_cases hn : n = f.entity
    · rw [if_pos hn.symm, if_pos hn]
    · rw [if_neg (fun h => hn h.symm), if_neg hn, if_neg hn]
  · rw [entOf_without h.nodup]

theorem entOf_foldl_other {cfg : CompCfg} {c : CClass} {n : Nat} :
    ∀ {fs : List CompField} {l : List CompEnt}, ListOk c l → (∀ f ∈ fs, Full c f) →
      (∀ f ∈ fs, f.entity ≠ n) → entOf (fs.foldl (afterField cfg) l) n = entOf l n
  | [], _, _, _, _ => rfl
  | f :: fs, l, h, ha, hn => by
    obtain ⟨hf, q, hq, hc⟩ := ha f List.mem_cons_self
    rw [List.foldl_cons, entOf_foldl_other (afterField_ok h hf hq hc)
      (fun x hx => ha x (List.mem_cons_of_mem _ hx))
      (fun x hx => hn x (List.mem_cons_of_mem _ hx)), entOf_afterField h,
      if_neg (fun he => hn f List.mem_cons_self he.symm)]

theorem entOf_foldl_mem {cfg : CompCfg} {c : CClass} :
    ∀ {fs : List CompField} {l : List CompEnt}, ListOk c l → (∀ f ∈ fs, Full c f) →
      (fs.map (·.entity)).Nodup → ∀ f ∈ fs, entOf (fs.foldl (afterField cfg) l) f.entity =
        if accepted cfg f then some (entityOf f) else none
  | [], _, _, _, _, f, hf => by cases hf
  | g :: fs, l, h, ha, hnd, f, hm => by
    obtain ⟨hf, q, hq, hc⟩ := ha g List.mem_cons_self
    have ha' := fun x hx => ha x (List.mem_cons_of_mem g hx)
    rw [List.map_cons, List.nodup_cons] at hnd
    rw [List.foldl_cons]
    rcases List.mem_cons.mp hm with hm | hm
    · subst hm
      rw [entOf_foldl_other (afterField_ok h hf hq hc) ha' (fun x hx he =>
        hnd.1 (List.mem_map.mpr ⟨x, hx, he⟩)), entOf_afterField h, if_pos rfl]
    · exact entOf_foldl_mem (afterField_ok h hf hq hc) ha' hnd.2 f hm

/-! ## Answers -/

/-- The field that stands for an answer in memory: like the proposal, without the P bit. -/
def answerField (x : Proposal) : CompField := { toField x with p := false }

/-- What is read of an answer before the request is consulted. -/
def answerRead (x : Proposal) : CompField :=
  { toFieldP x (keptProfiles x.alg) with p := false, comp := [] }

theorem full_toField (x : Proposal) : Full (algCls x.alg) (toField x) := by
  refine ⟨?_, _, rfl, cls_alg x.alg⟩
  intro q hq
  injection hq with hq
  subst hq
  show kindOf (algKind x.alg).cls x.alg.number = some (algKind x.alg)
  rw [cls_alg, kindOf_alg]

theorem full_answerField (x : Proposal) : Full (algCls x.alg) (answerField x) := full_toField x

theorem nsapis_refused (x : Proposal) : x.refused.nsapis = [] := by
  simp [Proposal.nsapis, Proposal.refused]

/-- Whether a proposal is accepted: RFC 1144 and V.42bis if so configured, for some NSAPI. -/
def accepts (cfg : CompCfg) (x : Proposal) : Bool := accepted cfg (toField x)

theorem answerOf_toField (cfg : CompCfg) (x : Proposal) :
    answerOf cfg (toField x) = answerField (answerTo (accepts cfg) x) := by
  unfold answerOf answerTo accepts
  split
  · rfl
  · unfold answerField toField CompField.refused
    simp only [Option.map_some, nsapis_refused]
    rfl

/-- Length of the part of an answer behind its length octet. -/
theorem answer_length (x : Proposal) (hx : x.alg.Legal) :
    (two x.nsapiMap ++ x.alg.bytes).length = 2 + x.alg.bytes.length ∧
      x.answerBytes.length = 4 + x.alg.bytes.length ∧ x.alg.bytes.length ≤ 42 := by
  have h1 : (two x.nsapiMap ++ x.alg.bytes).length = 2 + x.alg.bytes.length := by
    rw [List.length_append]
    rfl
  refine ⟨h1, ?_, alg_bytes_le hx⟩
  rw [Proposal.answerBytes, List.length_cons, List.length_cons, h1]
  omega

theorem encodes_answer (x : Proposal) (he : x.entity ≤ 31) (hcl : x.comps.length = x.alg.compCount)
    (hx : x.alg.Legal) : Encodes (x.answerBytes, answerField x) := by
  intro room hr
  obtain ⟨h1, h2, h3⟩ := answer_length x hx
  have hnum := number_le x.alg
  have hcc := compCount_le x.alg
  simp only at hr
  show encodeCompField room (answerField x) = .ok x.answerBytes
  rw [encodeCompField, answerField, toField]
  simp only
  rw [encParams_ok x hx, Res.bind_ok]
  simp only [Bool.false_eq_true, if_false, false_and, or_false, h1]
  have hm : (2 + x.alg.bytes.length) % 256 = 2 + x.alg.bytes.length := by omega
  rw [if_neg (by
    rintro (h | h | h | h)
    · omega
    · omega
    · omega
    · omega), hm, Nat.zero_add, Proposal.answerBytes, h1]
  rfl

theorem decodes_answer {lt : Option (List AlgoEntry)} (x : Proposal) (he : x.entity ≤ 31)
    (hx : x.alg.Legal) (hdec : Decodable x.alg)
    (hlt : lookupAlgo (algCls x.alg) x.entity lt = x.alg.number) :
    Decodes lt (algCls x.alg) (x.answerBytes, answerRead x) where
  len := by
    have := (answer_length x hx).2.1
    show 4 ≤ x.answerBytes.length
    omega
  dec := by
    intro b pos avail r h hav
    obtain ⟨h1, h2, h3⟩ := answer_length x hx
    show decodeCompField b pos avail lt (algCls x.alg) = .ok (answerRead x, x.answerBytes.length)
    have h' : b.drop pos = UInt8.ofNat x.entity ::
        (UInt8.ofNat (two x.nsapiMap ++ x.alg.bytes).length ::
          (two x.nsapiMap ++ x.alg.bytes ++ r)) := h
    obtain ⟨r0, d0⟩ := rd_drop h'
    obtain ⟨r1, d1⟩ := rd_drop d0
    rw [UInt8.toNat_ofNat'] at r0 r1
    have e0 : x.entity % 2 ^ 8 = x.entity := by omega
    have e1 : (two x.nsapiMap ++ x.alg.bytes).length % 2 ^ 8 = 2 + x.alg.bytes.length := by omega
    rw [e0] at r0
    rw [e1] at r1
    have f1 : ¬ (x.entity / 128 = 1) := by omega
    have f2 : x.entity % 32 = x.entity := by omega
    rw [decodeCompField, if_neg (by omega), r0, Res.bind_ok, if_neg f1, f2, hlt, decFieldBody, r1,
      Res.bind_ok, decCompValues, if_neg (by decide), Res.bind_ok]
    simp only
    rw [decAlgoParams, kindOf_alg]
    simp only
    have hu : u32Sub (2 + x.alg.bytes.length) 0 = 2 + x.alg.bytes.length := by
      rw [u32Sub_le (by omega) (by omega)]
      omega
    rw [hu, decParams_ok x hx hdec (r := r) d1, Res.bind_ok]
    simp only [Res.bind_ok]
    rw [h2]
    have : 1 + 1 + 0 + (2 + x.alg.bytes.length) = 4 + x.alg.bytes.length := by omega
    rw [this]
    rfl

/-! ## Completing answers from the request -/

theorem foldl_unique {α β : Type} (step : β → α → β) (hit : α → Prop) :
    ∀ (l : List α) (b : β), (∀ a ∈ l, ¬ hit a) → (∀ a b, ¬ hit a → step b a = b) →
      l.foldl step b = b
  | [], _, _, _ => rfl
  | a :: l, b, h, hs => by
    rw [List.foldl_cons, hs a b (h a List.mem_cons_self)]
    exact foldl_unique step hit l b (fun x hx => h x (List.mem_cons_of_mem _ hx)) hs

/-- What one entry of the request with the same number does to a field. -/
def completeStep (st : CompField × Bool) (s : CompField) : CompField × Bool :=
  let g := if s.comp.length > 0 then { st.1 with comp := s.comp } else st.1
  match completeParams g.params s.params with
  | .ok q => ({ g with params := q }, true)
  | _ => (g, false)

theorem completeField_unique (f : CompField) : ∀ (req : List CompField) (s : CompField), s ∈ req →
    (req.map (·.entity)).Nodup → s.entity = f.entity →
    completeField f req = completeStep (f, true) s := by
  intro req s hs hnd he
  have hfold : completeField f req =
      req.foldl (fun st s => if s.entity = f.entity then completeStep st s else st) (f, true) := rfl
  rw [hfold]
  have hskip : ∀ (a : CompField) (b : CompField × Bool), ¬ a.entity = f.entity →
      (fun st s => if s.entity = f.entity then completeStep st s else st) b a = b := by
    intro a b h
    simp only [h, if_false]
  clear hfold
  revert hs hnd
  generalize (f, true) = st
  induction req generalizing st with
  | nil => intro hs; cases hs
  | cons a l ih =>
    intro hs hnd
    rw [List.map_cons, List.nodup_cons] at hnd
    rw [List.foldl_cons]
    rcases List.mem_cons.mp hs with hs | hs
    · subst hs
      rw [if_pos he]
      refine foldl_unique _ (fun a => a.entity = f.entity) l _ ?_ hskip
      intro x hx hxe
      exact hnd.1 (List.mem_map.mpr ⟨x, hx, by rw [hxe, he]⟩)
    · have : ¬ a.entity = f.entity := by
        intro hae
        exact hnd.1 (List.mem_map.mpr ⟨s, hs, by rw [he, hae]⟩)
      rw [if_neg this]
      exact ih st hs hnd.2

theorem completeParams_self (x : Proposal) (ns : List Nat) :
    completeParams
      (some { kind := algKind x.alg, nsapis := ns, vals := (algVals x.alg).map Int.ofNat,
              profiles := algProfiles x.alg })
      (some { kind := algKind x.alg, nsapis := x.nsapis, vals := (algVals x.alg).map Int.ofNat,
              profiles := algProfiles x.alg }) =
    .ok (some { kind := algKind x.alg, nsapis := ns, vals := (algVals x.alg).map Int.ofNat,
                profiles := algProfiles x.alg }) := by
  have hz : ∀ l : List Nat, ((l.map Int.ofNat).zip (l.map Int.ofNat)).map
      (fun x : Int × Int => if x.1 < 0 then x.2 else x.1) = l.map Int.ofNat := by
    intro l
    induction l with
    | nil => rfl
    | cons a l ih =>
      rw [List.map_cons, List.zip_cons_cons, List.map_cons, ih]
      simp
  rw [completeParams, if_pos rfl, hz]
  simp

/-- An answer read back, completed from the request it answers. -/
theorem complete_answer {req : List CompField} (x y : Proposal) (hx : toField x ∈ req)
    (hnd : (req.map (·.entity)).Nodup) (hy : y = x ∨ y = x.refused)
    (hc : x.comps ≠ []) (hkeep : keptProfiles x.alg = algProfiles x.alg) :
    completeField (answerRead y) req = (answerField y, true) := by
  have halg : y.alg = x.alg := by rcases hy with h | h <;> rw [h] <;> rfl
  have hent : y.entity = x.entity := by rcases hy with h | h <;> rw [h] <;> rfl
  have hcomp : y.comps = x.comps := by rcases hy with h | h <;> rw [h] <;> rfl
  rw [completeField_unique (answerRead y) req (toField x) hx hnd hent.symm]
  have hlen : (toField x).comp.length > 0 := List.length_pos_iff.mpr hc
  unfold completeStep
  simp only [if_pos hlen]
  have hread : answerRead y = { p := false, entity := x.entity, algo := x.alg.number, comp := [],
                                params := some { kind := algKind x.alg, nsapis := y.nsapis,
                                                 vals := (algVals x.alg).map Int.ofNat,
                                                 profiles := algProfiles x.alg } } := by
    rw [answerRead, toFieldP, halg, hent, hkeep]
  have hans : answerField y = { p := false, entity := x.entity, algo := x.alg.number,
                                comp := x.comps,
                                params := some { kind := algKind x.alg, nsapis := y.nsapis,
                                                 vals := (algVals x.alg).map Int.ofNat,
                                                 profiles := algProfiles x.alg } } := by
    rw [answerField, toField, halg, hent, hcomp]
  have hreq : (toField x).params = some { kind := algKind x.alg, nsapis := x.nsapis,
                                          vals := (algVals x.alg).map Int.ofNat,
                                          profiles := algProfiles x.alg } := rfl
  rw [hread, hreq, completeParams_self, hans]
  rfl

end Verif.Sndcp
