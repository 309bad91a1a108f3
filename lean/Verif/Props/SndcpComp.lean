import Verif.Sndcp.CompLemmas
import Verif.Props.SndcpXid
/-!
# C47, C48, C69, C70: negotiation of SNDCP compression entities

`Spec.SndcpXid` describes proposals and answers.  A negotiation is: one side sends a block of
proposals (`xidReq`), the other is told by LL-XID.ind (`xidInd`) and answers (`xidRsp`), the first is
told by LL-XID.cnf (`xidCnf`).
-/
namespace Verif.Props
open Verif Verif.Sndcp Verif.Spec.SndcpXid

/-- Which proposals a side that accepts RFC 1144 (`cfg.rfc1144`) and V.42bis (`cfg.v42bis`) agrees
to: those of these algorithms that apply to some NSAPI. -/
def willing (cfg : CompCfg) (x : Proposal) : Bool :=
  match x.alg with
  | .rfc1144 _ => cfg.rfc1144 && !x.nsapis.isEmpty
  | .v42bis _ _ _ => cfg.v42bis && !x.nsapis.isEmpty
  | _ => false

/-- The entity a proposal stands for: number, NSAPIs, values, algorithm, kind. -/
def entityFor (x : Proposal) : CompEnt :=
  { entity := x.entity, nsapis := x.nsapis, comp := x.comps, algo := x.alg.number,
    cls := if x.alg.isHeader then .proto else .data,
    works := match x.alg with
      | .rfc1144 s0 => decide (s0 ≤ 254)
      | .v42bis _ _ _ => true
      | _ => false }

/-- Proposals of a block that can be sent, are understood, and of which no two of a kind have the
same number. -/
structure Negotiable (version : Option Nat) (xs : List Proposal) : Prop where
  sendable : Sendable version xs
  survives : ∀ x ∈ xs, Survives x.alg
  headers : ((headerOnly xs).map (·.entity)).Nodup
  datas : ((dataOnly xs).map (·.entity)).Nodup

theorem accepts_willing (cfg : CompCfg) (x : Proposal) : accepts cfg x = willing cfg x := by
  have hd : ∀ l : List Nat, decide (l ≠ []) = !l.isEmpty := by
    intro l
    cases l <;> rfl
  unfold accepts accepted willing toField
  cases hx : x.alg <;> simp only [algKind, hd]

theorem entityOf_toField (x : Proposal) (hx : x.alg.Legal) : entityOf (toField x) = entityFor x := by
  unfold entityOf entityFor toField
  simp only
  congr 1
  · rw [cls_alg]
    rfl
  · cases ha : x.alg with
    | rfc1144 s =>
      rw [ha] at hx
      simp only [Alg.Legal] at hx
      simp only [initWorks, algKind, algVals, List.map]
      rw [Bool.eq_iff_iff, Bool.and_eq_true, decide_eq_true_eq, decide_eq_true_eq,
        decide_eq_true_eq]
      constructor
      · intro h
        have := h.2
        simp at this
        omega
      · intro h
        constructor <;> simp <;> omega
    | v42bis a b c =>
      rw [ha] at hx
      simp only [Alg.Legal] at hx
      simp only [initWorks, algKind, algVals, List.map]
      simp
      omega
    | _ => rfl

theorem mem_headerOnly {xs : List Proposal} {x : Proposal} :
    x ∈ headerOnly xs ↔ x ∈ xs ∧ algCls x.alg = .proto := by
  rw [← filter_header, List.mem_filter, decide_eq_true_eq]

theorem mem_dataOnly {xs : List Proposal} {x : Proposal} :
    x ∈ dataOnly xs ↔ x ∈ xs ∧ algCls x.alg = .data := by
  rw [← filter_data, List.mem_filter, decide_eq_true_eq]

theorem mem_inMemory {xs : List Proposal} {f : CompField} :
    f ∈ inMemory xs ↔ ∃ x ∈ xs, toField x = f := by
  rw [inMemory, List.mem_reverse, List.mem_map]

theorem full_headers {xs : List Proposal} : ∀ f ∈ inMemory (headerOnly xs), Full .proto f := by
  intro f hf
  obtain ⟨x, hx, rfl⟩ := mem_inMemory.mp hf
  have := full_toField x
  rwa [(mem_headerOnly.mp hx).2] at this

theorem full_datas {xs : List Proposal} : ∀ f ∈ inMemory (dataOnly xs), Full .data f := by
  intro f hf
  obtain ⟨x, hx, rfl⟩ := mem_inMemory.mp hf
  have := full_toField x
  rwa [(mem_dataOnly.mp hx).2] at this

theorem inMemory_entities (xs : List Proposal) :
    (inMemory xs).map (·.entity) = (xs.map (·.entity)).reverse := by
  rw [inMemory, List.map_reverse, List.map_map]
  rfl

theorem inMemory_nodup {xs : List Proposal} (h : (xs.map (·.entity)).Nodup) :
    ((inMemory xs).map (·.entity)).Nodup := by
  rw [inMemory_entities]
  exact (List.reverse_perm _).symm.nodup h

/-- The fields kept for the answer. -/
def answers (cfg : CompCfg) (xs : List Proposal) : List CompField :=
  (xs.map (fun x => answerField (answerTo (willing cfg) x))).reverse

theorem answers_inMemory (cfg : CompCfg) (xs : List Proposal) :
    (inMemory xs).map (answerOf cfg) = answers cfg xs := by
  have hw : accepts cfg = willing cfg := funext (accepts_willing cfg)
  rw [inMemory, answers, List.map_reverse, List.map_map]
  congr 2
  funext x
  show answerOf cfg (toField x) = _
  rw [answerOf_toField, hw]

/-- What LL-XID.ind does with proposals, in detail. -/
theorem xidInd_effect (cfg : CompCfg) (s : Comps) (hs : CompsOk s) (version : Option Nat)
    (xs : List Proposal) (h : Negotiable version xs) :
    xidInd cfg s (xidBlock version xs) =
      .ok ({ proto := (inMemory (headerOnly xs)).foldl (afterField cfg) s.proto
             data := (inMemory (dataOnly xs)).foldl (afterField cfg) s.data },
        answers cfg (headerOnly xs) ++ answers cfg (dataOnly xs)) := by
  rw [xidInd, c46_decoding true version xs h.sendable
    (fun x hx => survives_decodable (h.survives x hx)),
    readBack_survives (xs := headerOnly xs) (fun y hy => h.survives y (List.mem_filter.mp hy).1),
    readBack_survives (xs := dataOnly xs) (fun y hy => h.survives y (List.mem_filter.mp hy).1),
    Res.bind_ok]
  simp only
  have h1 := handleFields_proto (cfg := cfg) hs (full_headers (xs := xs))
  have h2 := handleFields_data (cfg := cfg)
    (s := { s with proto := (inMemory (headerOnly xs)).foldl (afterField cfg) s.proto })
    ⟨foldl_ok hs.proto full_headers, hs.data⟩ (full_datas (xs := xs))
  rw [handleFields_append h1 h2, answers_inMemory, answers_inMemory]

/-! ## C48 -/

/-- The lists as a user sees them: at most one entity of a number, each with an NSAPI, of the right
kind and the algorithm of the kind that is implemented. -/
structure WellKept (s : Comps) : Prop where
  header : (s.proto.map (·.entity)).Nodup ∧
    ∀ e ∈ s.proto, e.cls = .proto ∧ e.algo = 0 ∧ e.nsapis ≠ []
  data : (s.data.map (·.entity)).Nodup ∧
    ∀ e ∈ s.data, e.cls = .data ∧ e.algo = 0 ∧ e.nsapis ≠ []

theorem wellKept_iff (s : Comps) : WellKept s ↔ CompsOk s :=
  ⟨fun h => ⟨⟨h.header.2, h.header.1⟩, ⟨h.data.2, h.data.1⟩⟩,
    fun h => ⟨⟨h.proto.nodup, h.proto.ents⟩, ⟨h.data.nodup, h.data.ents⟩⟩⟩

/-- What can happen to the compression entities of a subscriber: a block of proposals arrives, an
answer arrives for the `i`-th user's request, the `i`-th user asks for a negotiation.  Any octets may
arrive. -/
inductive NegOp where
  | ind (b : Octets)
  | cnf (i : Nat) (b : Octets)
  | req (i nsapi : Nat) (r : XidReq)

/-- The lists and the blocks last requested. -/
structure NegState where
  comps : Comps := {}
  reqs : Nat → Octets := fun _ => []

/-- One of them.  If a block is not understood nothing changes (the handlers return an error before
they touch the lists). -/
def negStep (cfg : CompCfg) (st : NegState) : NegOp → Res NegState
  | .ind b =>
    match xidInd cfg st.comps b with
    | .ok (s, _) => .ok { st with comps := s }
    | .err _ => .ok st
    | .ub f => .ub f
  | .cnf i b =>
    match xidCnf cfg st.comps (st.reqs i) b with
    | .ok s => .ok { st with comps := s }
    | .err _ => .ok st
    | .ub f => .ub f
  | .req i nsapi r =>
    match xidReq st.comps nsapi r with
    | .ok (s, o) => .ok { comps := s, reqs := fun j => if j = i then o else st.reqs j }
    | .err _ => .ok st
    | .ub f => .ub f

def negRun (cfg : CompCfg) : NegState → List NegOp → Res NegState
  | st, [] => .ok st
  | st, o :: os =>
    match negStep cfg st o with
    | .ok st => negRun cfg st os
    | .err e => .err e
    | .ub f => .ub f

theorem negStep_ok (cfg : CompCfg) (st : NegState) (hs : CompsOk st.comps) (o : NegOp)
    {st' : NegState} (h : negStep cfg st o = .ok st') : CompsOk st'.comps := by
  cases o with
  | ind b =>
    simp only [negStep] at h
    cases hx : xidInd cfg st.comps b with
    | ub f => rw [hx] at h; cases h
    | err e => rw [hx] at h; injection h with h; subst h; exact hs
    | ok r =>
      rw [hx] at h
      obtain ⟨s, gs⟩ := r
      injection h with h
      subst h
      rw [xidInd] at hx
      cases hp : parseXid true b none with
      | ub f => rw [hp] at hx; cases hx
      | err e => rw [hp] at hx; cases hx
      | ok r =>
        obtain ⟨v, fs⟩ := r
        rw [hp, Res.bind_ok] at hx
        obtain ⟨s', gs', e1, h1⟩ := handleFields_ok (cfg := cfg) hs (parseXid_fieldOk hp)
        simp only at hx
        rw [e1] at hx
        injection hx with hx
        injection hx with hx _
        subst hx
        exact h1
  | cnf i b =>
    simp only [negStep] at h
    cases hx : xidCnf cfg st.comps (st.reqs i) b with
    | ub f => rw [hx] at h; cases h
    | err e => rw [hx] at h; injection h with h; subst h; exact hs
    | ok s =>
      rw [hx] at h
      injection h with h
      subst h
      rw [xidCnf] at hx
      by_cases h0 : st.reqs i = []
      · rw [if_pos h0] at hx
        injection hx with hx
        subst hx
        exact hs
      · rw [if_neg h0] at hx
        cases hp : parseXid false (st.reqs i) none with
        | ub f => rw [hp] at hx; cases hx
        | err e => rw [hp] at hx; cases hx
        | ok r =>
          obtain ⟨v, rs⟩ := r
          rw [hp, Res.bind_ok] at hx
          simp only at hx
          cases hp2 : parseXid false b (some rs) with
          | ub f => rw [hp2] at hx; cases hx
          | err e => rw [hp2] at hx; cases hx
          | ok r =>
            obtain ⟨v, fs⟩ := r
            rw [hp2, Res.bind_ok] at hx
            obtain ⟨s', gs', e1, h1⟩ := handleFields_ok (cfg := cfg) hs (parseXid_fieldOk hp2)
            simp only at hx
            rw [e1, Res.bind_ok] at hx
            injection hx with hx
            subst hx
            exact h1
  | req i nsapi r =>
    simp only [negStep] at h
    cases hx : xidReq st.comps nsapi r with
    | ub f => rw [hx] at h; cases h
    | err e => rw [hx] at h; injection h with h; subst h; exact hs
    | ok q =>
      rw [hx] at h
      obtain ⟨s, o⟩ := q
      injection h with h
      subst h
      have hempty : s = {} := by
        rw [xidReq] at hx
        split at hx
        · cases hx
        · split at hx
          · injection hx with hx
            injection hx with hx _
            exact hx.symm
          · cases hc : compileXid 1024 (reqFields nsapi r) 0 with
            | ub f => rw [hc] at hx; cases hx
            | err e => rw [hc] at hx; cases hx
            | ok q =>
              rw [hc, Res.bind_ok] at hx
              injection hx with hx
              injection hx with hx _
              exact hx.symm
      subst hempty
      exact ⟨⟨by simp, List.nodup_nil⟩, ⟨by simp, List.nodup_nil⟩⟩

/-- The bookkeeping half of C48: in every history the lists are well kept. -/
theorem c48_well_kept (cfg : CompCfg) (ops : List NegOp) (st : NegState)
    (h : negRun cfg {} ops = .ok st) : WellKept st.comps := by
  rw [wellKept_iff]
  have h0 : CompsOk ({} : NegState).comps :=
    ⟨⟨by simp, List.nodup_nil⟩, ⟨by simp, List.nodup_nil⟩⟩
  revert h h0
  generalize ({} : NegState) = s0
  induction ops generalizing s0 with
  | nil =>
    intro h h0
    injection h with h
    subst h
    exact h0
  | cons o os ih =>
    intro h h0
    rw [negRun] at h
    cases h1 : negStep cfg s0 o with
    | ub f => rw [h1] at h; cases h
    | err e => rw [h1] at h; cases h
    | ok s1 =>
      rw [h1] at h
      exact ih s1 h (negStep_ok cfg s0 h0 o h1)

/-- Once a block has been understood, accepting, replacing and deleting entities never aborts,
whatever the octets were. -/
theorem c48_no_abort (cfg : CompCfg) (s : Comps) (hs : WellKept s) (b : Octets) (v : Int)
    (fs : List CompField) (h : parseXid true b none = .ok (v, fs)) :
    ∃ s' as, xidInd cfg s b = .ok (s', as) ∧ WellKept s' := by
  obtain ⟨s', gs, e1, h1⟩ :=
    handleFields_ok (cfg := cfg) ((wellKept_iff s).mp hs) (parseXid_fieldOk h)
  refine ⟨s', gs, ?_, (wellKept_iff s').mpr h1⟩
  rw [xidInd, h, Res.bind_ok]
  exact e1

/-- C48 in full: the lists are well kept in every history, and a block with header compression
fields only leaves data compression alone, and vice versa. -/
def C48Statement : Prop :=
  (∀ cfg ops st, negRun cfg {} ops = .ok st → WellKept st.comps) ∧
  (∀ cfg ops st, negRun cfg {} ops = .ok st → ∀ (v : Octets), v.length ≤ 255 →
    (∀ s' as, xidInd cfg st.comps (UInt8.ofNat 2 :: UInt8.ofNat v.length :: v) = .ok (s', as) →
      s'.data = st.comps.data) ∧
    (∀ s' as, xidInd cfg st.comps (UInt8.ofNat 1 :: UInt8.ofNat v.length :: v) = .ok (s', as) →
      s'.proto = st.comps.proto))

/-- A header compression field that is not a proposal, with number 1: it deletes the data compression
entity 1. -/
theorem c48_statement_violated : ¬ C48Statement := by
  intro h
  have hrun : negRun ⟨true, true⟩ {} [.ind (xidBlock (some 0) [egHeader, egData])] =
      .ok { comps := { proto := [entityFor egHeader], data := [entityFor egData] } } := by
    have : xidInd ⟨true, true⟩ {} (xidBlock (some 0) [egHeader, egData]) =
        .ok ({ proto := [entityFor egHeader], data := [entityFor egData] },
          [answerField egHeader, answerField egData]) := by
      decide +kernel
    rw [negRun, negStep]
    simp only
    rw [this]
    rfl
  have h2 := (h.2 _ _ _ hrun [1, 0] (by decide)).1
    { proto := [entityFor egHeader], data := [] }
    [{ p := false, entity := 1, algo := 4294967295, comp := [], params := none }] (by decide +kernel)
  revert h2
  decide

/-- C48 for blocks of proposals (the missing part of "never confused" is about blocks with fields that
are not proposals, for which it does not hold, see above): after LL-XID.ind with proposals, for each
proposal there is the entity it stands for if it is agreed to and none otherwise; all other
entities are as before. -/
theorem c48_proposals_partial (cfg : CompCfg) (s : Comps) (hs : WellKept s) (version : Option Nat)
    (xs : List Proposal) (h : Negotiable version xs) :
    ∃ s' as, xidInd cfg s (xidBlock version xs) = .ok (s', as) ∧ WellKept s' ∧
      (∀ x ∈ headerOnly xs, s'.proto.find? (fun e => e.entity = x.entity) =
        if willing cfg x then some (entityFor x) else none) ∧
      (∀ n, n ∉ (headerOnly xs).map (·.entity) →
        s'.proto.find? (fun e => e.entity = n) = s.proto.find? (fun e => e.entity = n)) ∧
      (∀ x ∈ dataOnly xs, s'.data.find? (fun e => e.entity = x.entity) =
        if willing cfg x then some (entityFor x) else none) ∧
      (∀ n, n ∉ (dataOnly xs).map (·.entity) →
        s'.data.find? (fun e => e.entity = n) = s.data.find? (fun e => e.entity = n)) := by
  have hs' := (wellKept_iff s).mp hs
  refine ⟨_, _, xidInd_effect cfg s hs' version xs h, ?_, ?_, ?_, ?_, ?_⟩
  · exact (wellKept_iff _).mpr ⟨foldl_ok hs'.proto full_headers, foldl_ok hs'.data full_datas⟩
  · intro x hx
    have := entOf_foldl_mem (cfg := cfg) hs'.proto (full_headers (xs := xs))
      (inMemory_nodup h.headers) (toField x) (mem_inMemory.mpr ⟨x, hx, rfl⟩)
    rw [entityOf_toField x (h.sendable.legal x (mem_headerOnly.mp hx).1).2.2.2] at this
    rw [← accepts_willing]
    exact this
  · intro n hn
    refine entOf_foldl_other (cfg := cfg) hs'.proto (full_headers (xs := xs)) ?_
    intro f hf he
    obtain ⟨x, hx, rfl⟩ := mem_inMemory.mp hf
    exact hn (List.mem_map.mpr ⟨x, hx, he⟩)
  · intro x hx
    have := entOf_foldl_mem (cfg := cfg) hs'.data (full_datas (xs := xs))
      (inMemory_nodup h.datas) (toField x) (mem_inMemory.mpr ⟨x, hx, rfl⟩)
    rw [entityOf_toField x (h.sendable.legal x (mem_dataOnly.mp hx).1).2.2.2] at this
    rw [← accepts_willing]
    exact this
  · intro n hn
    refine entOf_foldl_other (cfg := cfg) hs'.data (full_datas (xs := xs)) ?_
    intro f hf he
    obtain ⟨x, hx, rfl⟩ := mem_inMemory.mp hf
    exact hn (List.mem_map.mpr ⟨x, hx, he⟩)

theorem egSurvives : ∀ x ∈ [egHeader, egData], Survives x.alg := by
  intro x hx
  rcases List.mem_cons.mp hx with hx | hx
  · subst hx; trivial
  · rw [List.mem_singleton.mp hx]; trivial

theorem egNegotiable : Negotiable (some 0) [egHeader, egData] := by
  refine ⟨⟨legalBoth, ?_, .inl (by simp), by decide, by decide⟩, egSurvives, ?_, ?_⟩
  · intro v hv
    cases hv
    decide
  · show [0].Nodup
    decide
  · show [1].Nodup
    decide

example : WellKept {} ∧ Negotiable (some 0) [egHeader, egData] ∧
    willing ⟨true, false⟩ egHeader = true ∧ willing ⟨true, false⟩ egData = false :=
  ⟨⟨⟨List.nodup_nil, by simp⟩, List.nodup_nil, by simp⟩, egNegotiable, by decide, by decide⟩

/-! ## C47 -/

/-- C47 in full: no block makes SNDCP read out of bounds or abort, neither when it arrives nor when
the user answers it. -/
def C47Statement : Prop :=
  ∀ (cfg : CompCfg) (s : Comps), WellKept s → ∀ b : Octets,
    (xidInd cfg s b).Safe ∧ ∀ s' as, xidInd cfg s b = .ok (s', as) → (xidRsp as).Safe

theorem emptyKept : WellKept {} := ⟨⟨List.nodup_nil, by simp⟩, List.nodup_nil, by simp⟩

/-- Three octets suffice to make it read beyond the block, six to abort it when it is answered; and a
version number without a value. -/
theorem c47_crafted_violated :
    xidInd ⟨true, true⟩ {} [2, 1, 0x80] = .ub .outOfBounds ∧
    xidInd ⟨true, true⟩ {} [0, 0] = .ub .outOfBounds ∧
    (∃ s' as, xidInd ⟨true, true⟩ {} [1, 4, 0x80, 0x00, 0x01, 0x10] = .ok (s', as) ∧
      xidRsp as = .ub .assertFail) := by
  refine ⟨by decide +kernel, by decide +kernel,
    { proto := [], data := [] },
    [{ p := false, entity := 0, algo := 0, comp := [1],
       params := some { kind := .v42bis, nsapis := [], vals := [-1, -1, -1] } }],
    by decide +kernel, by decide +kernel⟩

theorem c47_statement_violated : ¬ C47Statement := by
  intro h
  have := (h ⟨true, true⟩ {} emptyKept [2, 1, 0x80]).1
  rw [c47_crafted_violated.1] at this
  exact Res.not_safe_ub _ this

/-- An answer with its octets. -/
def answerItem (cfg : CompCfg) (x : Proposal) : Octets × CompField :=
  ((answerTo (willing cfg) x).answerBytes, answerField (answerTo (willing cfg) x))

theorem answers_items (cfg : CompCfg) (xs : List Proposal) :
    answers cfg (headerOnly xs) ++ answers cfg (dataOnly xs) =
      itemsBack ((dataOnly xs ++ headerOnly xs).map (answerItem cfg)) := by
  unfold answers itemsBack
  rw [List.map_map, List.map_append, List.reverse_append]
  rfl

theorem answerTo_alg (acc : Proposal → Bool) (x : Proposal) :
    (answerTo acc x).alg = x.alg ∧ (answerTo acc x).entity = x.entity ∧
      (answerTo acc x).comps = x.comps := by
  unfold answerTo
  split <;> exact ⟨rfl, rfl, rfl⟩

theorem answerItem_encodes (cfg : CompCfg) (xs : List Proposal) (hl : ∀ x ∈ xs, x.Legal) :
    ∀ i ∈ (dataOnly xs ++ headerOnly xs).map (answerItem cfg), Encodes i := by
  intro i hi
  obtain ⟨x, hx, rfl⟩ := List.mem_map.mp hi
  have hm : x ∈ xs := by
    rcases List.mem_append.mp hx with hx | hx
    · exact (mem_dataOnly.mp hx).1
    · exact (mem_headerOnly.mp hx).1
  obtain ⟨h1, h2, _, h4⟩ := hl x hm
  obtain ⟨e1, e2, e3⟩ := answerTo_alg (willing cfg) x
  exact encodes_answer _ (by rw [e2]; exact h1) (by rw [e3, e1]; exact h2) (by rw [e1]; exact h4)

theorem answerItems_class (cfg : CompCfg) (xs : List Proposal) (c : CClass) :
    itemBytes (ofClass c ((dataOnly xs ++ headerOnly xs).map (answerItem cfg))) =
      answerFields (willing cfg)
        ((dataOnly xs ++ headerOnly xs).filter (fun x => algCls x.alg = c)) := by
  have hcls : ∀ x, (answerItem cfg x).2.cls = some (algCls x.alg) := by
    intro x
    have := cls_toField (answerTo (willing cfg) x)
    rw [(answerTo_alg (willing cfg) x).1] at this
    exact this
  rw [ofClass, List.filter_map, itemBytes, List.flatMap_map]
  unfold answerFields
  congr 1
  apply List.filter_congr
  intro x _
  simp only [Function.comp, hcls]
  simp

theorem class_data (xs : List Proposal) :
    (dataOnly xs ++ headerOnly xs).filter (fun x => algCls x.alg = .data) = dataOnly xs := by
  rw [List.filter_append, List.filter_eq_self.mpr, List.filter_eq_nil_iff.mpr, List.append_nil]
  · intro x hx
    rw [(mem_headerOnly.mp hx).2]
    simp
  · intro x hx
    rw [(mem_dataOnly.mp hx).2]
    simp

theorem class_proto (xs : List Proposal) :
    (dataOnly xs ++ headerOnly xs).filter (fun x => algCls x.alg = .proto) = headerOnly xs := by
  rw [List.filter_append, List.filter_eq_nil_iff.mpr, List.filter_eq_self.mpr, List.nil_append]
  · intro x hx
    rw [(mem_headerOnly.mp hx).2]
    simp
  · intro x hx
    rw [(mem_dataOnly.mp hx).2]
    simp

theorem answerFields_le (acc : Proposal → Bool) : ∀ xs : List Proposal, (∀ x ∈ xs, x.Legal) →
    (answerFields acc xs).length ≤ (fieldBytes xs).length
  | [], _ => Nat.le_refl _
  | x :: xs, h => by
    have ih := answerFields_le acc xs (fun y hy => h y (List.mem_cons_of_mem _ hy))
    have hx := h x List.mem_cons_self
    obtain ⟨ha, _, _⟩ := answerTo_alg acc x
    have h1 := (answer_length (answerTo acc x) (by rw [ha]; exact hx.2.2.2)).2.1
    rw [ha] at h1
    have h2 := bytes_length x
    have h3 := (body_length x hx).1
    have e1 : answerFields acc (x :: xs) = (answerTo acc x).answerBytes ++ answerFields acc xs := rfl
    rw [e1, fieldBytes_cons, List.length_append, List.length_append]
    omega

/-- C47 for proposals whose answer has at most 256 octets: nothing bad happens and the answer is the
standard's: agreed proposals are repeated, the others are answered without NSAPIs. -/
theorem c47_answer_partial (cfg : CompCfg) (s : Comps) (hs : WellKept s) (version : Option Nat)
    (xs : List Proposal) (h : Negotiable version xs) (hne : xs ≠ [])
    (hfit : (answerBlock (willing cfg) xs).length ≤ 256) :
    ∃ s' as, xidInd cfg s (xidBlock version xs) = .ok (s', as) ∧
      xidRsp as = .ok (answerBlock (willing cfg) xs) := by
  refine ⟨_, _, xidInd_effect cfg s ((wellKept_iff s).mp hs) version xs h, ?_⟩
  rw [answers_items]
  have hall := answerItem_encodes cfg xs (fun x hx => h.sendable.legal x hx)
  have hcd := answerItems_class cfg xs .data
  have hcp := answerItems_class cfg xs .proto
  rw [class_data] at hcd
  rw [class_proto] at hcp
  have ld := answerFields_le (willing cfg) (dataOnly xs)
    (fun x hx => h.sendable.legal x (mem_dataOnly.mp hx).1)
  have lp := answerFields_le (willing cfg) (headerOnly xs)
    (fun x hx => h.sendable.legal x (mem_headerOnly.mp hx).1)
  have hd := h.sendable.datas
  have hp := h.sendable.headers
  have hnil : (dataOnly xs ++ headerOnly xs).map (answerItem cfg) ≠ [] := by
    intro h0
    apply hne
    have h1 := List.map_eq_nil_iff.mp h0
    obtain ⟨h2, h3⟩ := List.append_eq_nil_iff.mp h1
    cases xs with
    | nil => rfl
    | cons x t =>
      cases hh : x.alg.isHeader
      · simp [dataOnly, hh] at h2
      · simp [headerOnly, hh] at h3
  have hblock : answerBlock (willing cfg) xs = parameter 0 (one 0) ++
      parameter 1 (answerFields (willing cfg) (dataOnly xs)) ++
      parameter 2 (answerFields (willing cfg) (headerOnly xs)) := rfl
  have hc := compileXid_ok 256 ((dataOnly xs ++ headerOnly xs).map (answerItem cfg)) 0 (by omega) hnil
    hall (by rw [hcd]; omega) (by rw [hcp]; omega) (by rw [hcd, hcp, ← hblock]; exact hfit)
  rw [hcd, hcp, ← hblock] at hc
  have hc' : compileXid 256 (itemsBack ((dataOnly xs ++ headerOnly xs).map (answerItem cfg))) 0 =
    .ok (answerBlock (willing cfg) xs, (answerBlock (willing cfg) xs).length) := hc
  rw [xidRsp, hc', Res.bind_ok]
  simp only
  rw [if_neg (by omega)]

example : Negotiable (some 0) [egHeader, egData] ∧ [egHeader, egData] ≠ [] ∧
    answerBlock (willing ⟨true, false⟩) [egHeader, egData] =
      [0, 1, 0, 1, 8, 1, 6, 0, 0, 1, 8, 0, 20, 2, 5, 0, 3, 0, 0x60, 7] ∧
    (answerBlock (willing ⟨true, false⟩) [egHeader, egData]).length ≤ 256 :=
  ⟨egNegotiable, by simp, by decide, by decide⟩

/-- Legal proposals of which there are many: 25 of V.42bis and 20 of RFC 1144. -/
def egMany : List Proposal :=
  (List.range 25).map (fun i => { egData with entity := i }) ++
  (List.range 20).map (fun i => { egHeader with entity := i })

/-- A block of legal proposals, each parameter within its 255 octets, whose answer is written beyond
the buffer of 256 octets. -/
theorem c47_long_answer_violated :
    Negotiable none egMany ∧
    ∃ s' as, xidInd ⟨true, true⟩ {} (xidBlock none egMany) = .ok (s', as) ∧
      xidRsp as = .ub .outOfBounds := by
  have hn : Negotiable none egMany := by
    refine ⟨⟨?_, by simp, .inr (by decide), by decide +kernel, by decide +kernel⟩, ?_,
      by decide +kernel, by decide +kernel⟩
    · intro x hx
      rcases List.mem_append.mp hx with hx | hx
      · obtain ⟨i, hi, rfl⟩ := List.mem_map.mp hx
        have := List.mem_range.mp hi
        exact ⟨by show i ≤ 31; omega, legalData.2⟩
      · obtain ⟨i, hi, rfl⟩ := List.mem_map.mp hx
        have := List.mem_range.mp hi
        exact ⟨by show i ≤ 31; omega, legalHeader.2⟩
    · intro x hx
      rcases List.mem_append.mp hx with hx | hx
      · obtain ⟨i, hi, rfl⟩ := List.mem_map.mp hx
        trivial
      · obtain ⟨i, hi, rfl⟩ := List.mem_map.mp hx
        trivial
  refine ⟨hn, _, _, xidInd_effect ⟨true, true⟩ {} ((wellKept_iff _).mp emptyKept) none egMany hn, ?_⟩
  decide +kernel

/-! ## C69 -/

/-- C69 in full: in every history, every compression entity has a working compressor. -/
def C69Statement : Prop :=
  ∀ cfg ops st, negRun cfg {} ops = .ok st → ∀ e ∈ st.comps.proto ++ st.comps.data, e.works = true

/-- The largest legal number of RFC 1144 slots gives an entity without a compressor, and so do
proposals that leave the parameters out. -/
theorem c69_violated :
    (∃ s as e, xidInd ⟨true, true⟩ {} (xidBlock none [{ egHeader with alg := .rfc1144 255 }]) =
      .ok (s, as) ∧ e ∈ s.proto ∧ e.works = false) ∧
    (∃ s as e, xidInd ⟨true, true⟩ {} [1, 6, 0x80, 0, 3, 0x10, 0, 0x20] = .ok (s, as) ∧ e ∈ s.data ∧
      e.works = false) := by
  refine ⟨⟨{ proto := [entityFor { egHeader with alg := .rfc1144 255 }], data := [] },
    [answerField { egHeader with alg := .rfc1144 255 }], _, by decide +kernel, List.mem_cons_self,
    by decide⟩,
    ⟨{ proto := [], data := [⟨0, [5], [1], 0, .data, false⟩] },
     [{ p := false, entity := 0, algo := 0, comp := [1],
        params := some { kind := .v42bis, nsapis := [5], vals := [-1, -1, -1] } }], _,
     by decide +kernel, List.mem_cons_self, rfl⟩⟩

theorem c69_statement_violated : ¬ C69Statement := by
  intro h
  obtain ⟨s, as, e, h1, h2, h3⟩ := c69_violated.1
  have hrun : negRun ⟨true, true⟩ {} [.ind (xidBlock none [{ egHeader with alg := .rfc1144 255 }])] =
      .ok { comps := s } := by
    rw [negRun, negStep]
    have h1' : xidInd ⟨true, true⟩ ({} : NegState).comps
      (xidBlock none [{ egHeader with alg := .rfc1144 255 }]) = .ok (s, as) := h1
    simp only
    rw [h1']
    rfl
  have := h _ _ _ hrun e (List.mem_append_left _ h2)
  rw [h3] at this
  cases this

/-- C69 for legal proposals that do not ask for 256 slots: the entities they stand for have working
compressors. -/
theorem c69_works_partial (cfg : CompCfg) (s : Comps) (hs : WellKept s)
    (hw : ∀ e ∈ s.proto ++ s.data, e.works = true) (version : Option Nat)
    (xs : List Proposal) (h : Negotiable version xs)
    (hslots : ∀ x ∈ xs, ∀ s0, x.alg = .rfc1144 s0 → s0 ≤ 254) :
    ∃ s' as, xidInd cfg s (xidBlock version xs) = .ok (s', as) ∧
      ∀ e ∈ s'.proto ++ s'.data, e.works = true := by
  obtain ⟨s', as, e1, hk, p1, p2, d1, d2⟩ := c48_proposals_partial cfg s hs version xs h
  refine ⟨s', as, e1, ?_⟩
  have hworks : ∀ x ∈ xs, willing cfg x = true → (entityFor x).works = true := by
    intro x hx hwill
    unfold entityFor
    unfold willing at hwill
    cases ha : x.alg with
    | rfc1144 s0 => simpa using hslots x hx s0 ha
    | v42bis a b c => rfl
    | _ => rw [ha] at hwill; cases hwill
  have hfind : ∀ (l : List CompEnt) (e : CompEnt), (l.map (·.entity)).Nodup → e ∈ l →
      l.find? (fun x => x.entity = e.entity) = some e := by
    intro l e hnd he
    induction l with
    | nil => cases he
    | cons a t ih =>
      rw [List.map_cons, List.nodup_cons] at hnd
      rw [List.find?_cons]
      rcases List.mem_cons.mp he with he | he
      · subst he
        simp
      · have : ¬ a.entity = e.entity := fun hh =>
          hnd.1 (List.mem_map.mpr ⟨e, he, hh.symm⟩)
        simp only [this, decide_false]
        exact ih hnd.2 he
  have hmain : ∀ (l l' : List CompEnt) (ys : List Proposal), (l'.map (·.entity)).Nodup →
      (∀ y ∈ ys, y ∈ xs) → (∀ e ∈ l, e.works = true) →
      (∀ x ∈ ys, l'.find? (fun e => e.entity = x.entity) =
        if willing cfg x then some (entityFor x) else none) →
      (∀ n, n ∉ ys.map (·.entity) →
        l'.find? (fun e => e.entity = n) = l.find? (fun e => e.entity = n)) →
      ∀ e ∈ l', e.works = true := by
    intro l l' ys hnd hys hl hin hout e he
    have hf := hfind l' e hnd he
    by_cases hm : e.entity ∈ ys.map (·.entity)
    · obtain ⟨x, hx, hxe⟩ := List.mem_map.mp hm
      have := hin x hx
      rw [hxe, hf] at this
      by_cases hwill : willing cfg x = true
      · rw [if_pos hwill] at this
        injection this with this
        rw [this]
        exact hworks x (hys x hx) hwill
      · rw [if_neg hwill] at this
        cases this
    · have := hout e.entity hm
      rw [hf] at this
      exact hl e (List.mem_of_find?_eq_some this.symm)
  intro e he
  rcases List.mem_append.mp he with he | he
  · exact hmain s.proto s'.proto (headerOnly xs) hk.header.1 (fun y hy => (mem_headerOnly.mp hy).1)
      (fun e he => hw e (List.mem_append_left _ he)) p1 p2 e he
  · exact hmain s.data s'.data (dataOnly xs) hk.data.1 (fun y hy => (mem_dataOnly.mp hy).1)
      (fun e he => hw e (List.mem_append_right _ he)) d1 d2 e he

example : Negotiable (some 0) [egHeader, egData] ∧
    ∀ x ∈ [egHeader, egData], ∀ s0, x.alg = .rfc1144 s0 → s0 ≤ 254 := by
  refine ⟨egNegotiable, ?_⟩
  intro x hx s0 h
  rcases List.mem_cons.mp hx with hx | hx
  · subst hx
    injection h with h
    omega
  · rw [List.mem_singleton.mp hx] at h
    cases h

/-! ## C70 -/

/-- Two sides have the same compression entities. -/
def Agree (a b : Comps) : Prop :=
  ∀ n, a.proto.find? (fun e => e.entity = n) = b.proto.find? (fun e => e.entity = n) ∧
    a.data.find? (fun e => e.entity = n) = b.data.find? (fun e => e.entity = n)

/-- A whole negotiation of side A with side B about a block: B is told, B answers, A is told the
answer.  The entities of both sides afterwards. -/
def negotiate (cfgA cfgB : CompCfg) (sA sB : Comps) (block : Octets) : Res (Comps × Comps) := do
  let (sB, as) ← xidInd cfgB sB block
  let answer ← xidRsp as
  let sA ← xidCnf cfgA sA block answer
  .ok (sA, sB)

theorem nodup_bound : ∀ (n : Nat) (l : List Nat), l.Nodup → (∀ a ∈ l, a < n) → l.length ≤ n
  | 0, l, _, h => by
    cases l with
    | nil => exact Nat.le_refl 0
    | cons a t => exact absurd (h a List.mem_cons_self) (by omega)
  | n + 1, l, hn, h => by
    have ih := nodup_bound n (l.erase n) (hn.sublist List.erase_sublist) (by
      intro a ha
      have h1 := h a (List.mem_of_mem_erase ha)
      have h2 : a ≠ n := by
        intro he
        subst he
        exact (List.Nodup.not_mem_erase hn) ha
      omega)
    have := List.le_length_erase (l := l) (a := n)
    omega

theorem find?_unique {α : Type} {p : α → Bool} : ∀ {l : List α} {e : α}, e ∈ l → p e = true →
    (∀ x ∈ l, p x = true → x = e) → l.find? p = some e
  | [], _, h, _, _ => by cases h
  | a :: l, e, h, hp, hu => by
    rw [List.find?_cons]
    cases ha : p a with
    | true => rw [hu a List.mem_cons_self ha]
    | false =>
      rcases List.mem_cons.mp h with h | h
      · rw [h, ha] at hp; cases hp
      · exact find?_unique h hp (fun x hx => hu x (List.mem_cons_of_mem _ hx))

/-- The request as it is read by the side that sent it. -/
def asRead (xs : List Proposal) : List CompField :=
  inMemory (headerOnly xs) ++ inMemory (dataOnly xs)

theorem mem_asRead {xs : List Proposal} {f : CompField} :
    f ∈ asRead xs ↔ ∃ x ∈ xs, toField x = f := by
  rw [asRead, List.mem_append, mem_inMemory, mem_inMemory]
  constructor
  · rintro (⟨x, hx, hf⟩ | ⟨x, hx, hf⟩)
    · exact ⟨x, (mem_headerOnly.mp hx).1, hf⟩
    · exact ⟨x, (mem_dataOnly.mp hx).1, hf⟩
  · rintro ⟨x, hx, hf⟩
    cases hc : algCls x.alg with
    | proto => exact .inl ⟨x, mem_headerOnly.mpr ⟨hx, hc⟩, hf⟩
    | data => exact .inr ⟨x, mem_dataOnly.mpr ⟨hx, hc⟩, hf⟩

theorem perm_parts (xs : List Proposal) : (headerOnly xs ++ dataOnly xs).Perm xs := by
  have := List.filter_append_perm (fun x : Proposal => x.alg.isHeader) xs
  exact this

theorem asRead_nodup {xs : List Proposal} (h : (xs.map (·.entity)).Nodup) :
    ((asRead xs).map (·.entity)).Nodup := by
  rw [asRead, List.map_append, inMemory_entities, inMemory_entities]
  have h1 : ((headerOnly xs).map (·.entity) ++ (dataOnly xs).map (·.entity)).Perm
      (xs.map (·.entity)) := by
    rw [← List.map_append]
    exact (perm_parts xs).map _
  have h2 : (((headerOnly xs).map (·.entity)).reverse ++
      ((dataOnly xs).map (·.entity)).reverse).Perm
      ((headerOnly xs).map (·.entity) ++ (dataOnly xs).map (·.entity)) :=
    List.Perm.append (List.reverse_perm _) (List.reverse_perm _)
  exact ((h2.trans h1).symm).nodup h

theorem fillTable_asRead (xs : List Proposal) :
    fillTable (asRead xs) = (asRead xs).filterMap
      (fun f => f.cls.map (fun c => ⟨f.entity, f.algo, c⟩)) := rfl

theorem table_length {xs : List Proposal} (hl : ∀ x ∈ xs, x.Legal)
    (h : (xs.map (·.entity)).Nodup) : (fillTable (asRead xs)).length ≤ 64 := by
  have h1 := nodup_bound 32 _ (asRead_nodup h) (by
    intro a ha
    obtain ⟨f, hf, rfl⟩ := List.mem_map.mp ha
    obtain ⟨x, hx, rfl⟩ := mem_asRead.mp hf
    have := (hl x hx).1
    show x.entity < 32
    omega)
  rw [List.length_map] at h1
  have h2 := List.length_filterMap_le
    (fun f : CompField => f.cls.map (fun c => (⟨f.entity, f.algo, c⟩ : AlgoEntry))) (asRead xs)
  have h3 : (fillTable (asRead xs)).length ≤ (asRead xs).length := h2
  omega

theorem lookup_asRead {xs : List Proposal} (h : (xs.map (·.entity)).Nodup) {x : Proposal}
    (hx : x ∈ xs) :
    lookupAlgo (algCls x.alg) x.entity (some (fillTable (asRead xs))) = x.alg.number := by
  have hent : ∀ e ∈ fillTable (asRead xs), ∃ y ∈ xs, e = ⟨y.entity, y.alg.number, algCls y.alg⟩ := by
    intro e he
    obtain ⟨f, hf, hfe⟩ := List.mem_filterMap.mp he
    obtain ⟨y, hy, rfl⟩ := mem_asRead.mp hf
    rw [cls_toField] at hfe
    injection hfe with hfe
    exact ⟨y, hy, hfe.symm⟩
  have hinj : ∀ y ∈ xs, y.entity = x.entity → y = x := by
    intro y hy he
    revert hx hy
    revert h
    generalize xs = l
    induction l with
    | nil => intro _ hx; cases hx
    | cons a t ih =>
      intro h hx hy
      rw [List.map_cons, List.nodup_cons] at h
      rcases List.mem_cons.mp hx with hx | hx
      · rcases List.mem_cons.mp hy with hy | hy
        · rw [hx, hy]
        · exact absurd (List.mem_map.mpr ⟨y, hy, by rw [he, hx]⟩) h.1
      · rcases List.mem_cons.mp hy with hy | hy
        · exact absurd (List.mem_map.mpr ⟨x, hx, by rw [← he, hy]⟩) h.1
        · exact ih h.2 hx hy
  have hmem : (⟨x.entity, x.alg.number, algCls x.alg⟩ : AlgoEntry) ∈ fillTable (asRead xs) := by
    refine List.mem_filterMap.mpr ⟨toField x, mem_asRead.mpr ⟨x, hx, rfl⟩, ?_⟩
    rw [cls_toField]
    rfl
  have hf := find?_unique (p := fun e : AlgoEntry => e.entity = x.entity ∧ e.cls = algCls x.alg) hmem
    (by simp) (by
      intro e he hp
      obtain ⟨y, hy, rfl⟩ := hent e he
      simp only [decide_eq_true_eq] at hp
      rw [hinj y hy hp.1])
  rw [lookupAlgo, hf]

/-- An answer with its octets, as it is read. -/
def readAnswer (cfg : CompCfg) (x : Proposal) : Octets × CompField :=
  ((answerTo (willing cfg) x).answerBytes, answerRead (answerTo (willing cfg) x))

theorem itemBytes_answers (cfg : CompCfg) (xs : List Proposal) :
    itemBytes (xs.map (readAnswer cfg)) = answerFields (willing cfg) xs := by
  rw [itemBytes, List.flatMap_map]
  rfl

theorem completeFields_map {req : List CompField} {α : Type} (f g : α → CompField) :
    ∀ l : List α, (∀ a ∈ l, completeField (f a) req = (g a, true)) →
      completeFields req (l.map f) = .ok (l.map g)
  | [], _ => rfl
  | a :: l, h => by
    rw [List.map_cons, completeFields, h a List.mem_cons_self]
    simp only [if_true]
    rw [completeFields_map f g l (fun x hx => h x (List.mem_cons_of_mem _ hx))]
    rfl

/-- What A reads of B's answer. -/
theorem parse_answer (cfgB : CompCfg) (version : Option Nat) (xs : List Proposal)
    (h : Negotiable version xs) (hnd : (xs.map (·.entity)).Nodup) :
    parseXid false (answerBlock (willing cfgB) xs) (some (asRead xs)) =
      .ok (-1, answers cfgB (headerOnly xs) ++ answers cfgB (dataOnly xs)) := by
  have hdec : ∀ x ∈ xs, Decodes (some (fillTable (asRead xs))) (algCls x.alg) (readAnswer cfgB x) := by
    intro x hx
    obtain ⟨e1, e2, e3⟩ := answerTo_alg (willing cfgB) x
    have hl := h.sendable.legal x hx
    have := decodes_answer (lt := some (fillTable (asRead xs))) (answerTo (willing cfgB) x)
      (by rw [e2]; exact hl.1) (by rw [e1]; exact hl.2.2.2)
      (by rw [e1]; exact survives_decodable (h.survives x hx))
      (by rw [e1, e2]; exact lookup_asRead hnd hx)
    rw [e1] at this
    exact this
  have ld := answerFields_le (willing cfgB) (dataOnly xs)
    (fun x hx => h.sendable.legal x (mem_dataOnly.mp hx).1)
  have lp := answerFields_le (willing cfgB) (headerOnly xs)
    (fun x hx => h.sendable.legal x (mem_headerOnly.mp hx).1)
  have hds : OneClass (some (fillTable (asRead xs))) .data ((dataOnly xs).map (readAnswer cfgB)) := by
    refine ⟨fun i hi => ?_, by rw [itemBytes_answers]; exact Nat.le_trans ld h.sendable.datas⟩
    obtain ⟨x, hx, rfl⟩ := List.mem_map.mp hi
    obtain ⟨hm, hc⟩ := mem_dataOnly.mp hx
    have := hdec x hm
    rwa [hc] at this
  have hps : OneClass (some (fillTable (asRead xs))) .proto
      ((headerOnly xs).map (readAnswer cfgB)) := by
    refine ⟨fun i hi => ?_, by rw [itemBytes_answers]; exact Nat.le_trans lp h.sendable.headers⟩
    obtain ⟨x, hx, rfl⟩ := List.mem_map.mp hi
    obtain ⟨hm, hc⟩ := mem_headerOnly.mp hx
    have := hdec x hm
    rwa [hc] at this
  obtain ⟨h1, h2⟩ := decodeXid_block (w := false) (version := some 0) hds hps
    (by intro v hv; injection hv with hv; omega) (.inl (by simp)) (b := answerBlock (willing cfgB) xs)
    (by rw [itemBytes_answers, itemBytes_answers]; rfl)
  have hback : ∀ ys : List Proposal, itemsBack (ys.map (readAnswer cfgB)) =
      (ys.reverse).map (fun x => answerRead (answerTo (willing cfgB) x)) := by
    intro ys
    rw [itemsBack, List.map_map, List.map_reverse]
    rfl
  have hans : ∀ ys : List Proposal, answers cfgB ys =
      (ys.reverse).map (fun x => answerField (answerTo (willing cfgB) x)) := by
    intro ys
    rw [answers, List.map_reverse]
  have hcomplete := completeFields_map (req := asRead xs)
    (fun x => answerRead (answerTo (willing cfgB) x))
    (fun x => answerField (answerTo (willing cfgB) x))
    ((headerOnly xs).reverse ++ (dataOnly xs).reverse) (by
      intro x hx
      have hm : x ∈ xs := by
        rcases List.mem_append.mp hx with hx | hx
        · exact (mem_headerOnly.mp (List.mem_reverse.mp hx)).1
        · exact (mem_dataOnly.mp (List.mem_reverse.mp hx)).1
      have hl := h.sendable.legal x hm
      refine complete_answer x _ (mem_asRead.mpr ⟨x, hm, rfl⟩) (asRead_nodup hnd) ?_ ?_ ?_
      · unfold answerTo
        split
        · exact .inl rfl
        · exact .inr rfl
      · intro h0
        have h1 := hl.2.1
        have h2 := compCount_pos x.alg
        rw [h0, List.length_nil] at h1
        omega
      · have := survives_kept (h.survives x hm)
        have := congrArg (fun f : CompField => f.params.map (·.profiles)) this
        simpa [toFieldP, toField] using this)
  rw [List.map_append, ← hback, ← hback, List.map_append, ← hans, ← hans] at hcomplete
  unfold parseXid
  rw [if_neg h1]
  simp only
  rw [if_neg (by have := table_length h.sendable.legal hnd; omega), h2]
  simp only
  rw [hcomplete]

theorem accepted_answer (cfgA cfgB : CompCfg) (x : Proposal) :
    accepted cfgA (answerField (answerTo (willing cfgB) x)) =
      (willing cfgB x && willing cfgA x) := by
  have h1 : ∀ y, accepted cfgA (answerField y) = willing cfgA y := fun y => accepts_willing cfgA y
  rw [h1]
  unfold answerTo
  by_cases hb : willing cfgB x = true
  · rw [if_pos hb, hb, Bool.true_and]
  · have hb' : willing cfgB x = false := by simpa using hb
    rw [if_neg hb, hb', Bool.false_and]
    unfold willing
    rw [nsapis_refused]
    show (match x.alg with | .rfc1144 _ => _ | .v42bis _ _ _ => _ | _ => _) = false
    cases x.alg <;> simp

theorem full_answers_headers (cfg : CompCfg) {xs : List Proposal} :
    ∀ f ∈ answers cfg (headerOnly xs), Full .proto f := by
  intro f hf
  obtain ⟨x, hx, rfl⟩ := List.mem_map.mp (List.mem_reverse.mp hf)
  have := full_answerField (answerTo (willing cfg) x)
  rwa [(answerTo_alg (willing cfg) x).1, (mem_headerOnly.mp hx).2] at this

theorem full_answers_datas (cfg : CompCfg) {xs : List Proposal} :
    ∀ f ∈ answers cfg (dataOnly xs), Full .data f := by
  intro f hf
  obtain ⟨x, hx, rfl⟩ := List.mem_map.mp (List.mem_reverse.mp hf)
  have := full_answerField (answerTo (willing cfg) x)
  rwa [(answerTo_alg (willing cfg) x).1, (mem_dataOnly.mp hx).2] at this

theorem answers_entities (cfg : CompCfg) (xs : List Proposal) :
    (answers cfg xs).map (·.entity) = (xs.map (·.entity)).reverse := by
  rw [answers, List.map_reverse, List.map_map]
  congr 2
  funext x
  exact (answerTo_alg (willing cfg) x).2.1

/-- What A makes of B's answer. -/
theorem xidCnf_effect (cfgA cfgB : CompCfg) (s : Comps) (hs : CompsOk s) (version : Option Nat)
    (xs : List Proposal) (h : Negotiable version xs) (hnd : (xs.map (·.entity)).Nodup) :
    xidCnf cfgA s (xidBlock version xs) (answerBlock (willing cfgB) xs) =
      .ok { proto := (answers cfgB (headerOnly xs)).foldl (afterField cfgA) s.proto
            data := (answers cfgB (dataOnly xs)).foldl (afterField cfgA) s.data } := by
  have hreq := c46_decoding false version xs h.sendable
    (fun x hx => survives_decodable (h.survives x hx))
  rw [readBack_survives (xs := headerOnly xs) (fun y hy => h.survives y (List.mem_filter.mp hy).1),
    readBack_survives (xs := dataOnly xs) (fun y hy => h.survives y (List.mem_filter.mp hy).1)]
    at hreq
  have hne : xidBlock version xs ≠ [] := by
    intro h0
    rw [h0] at hreq
    cases hreq
  have h1 := handleFields_proto (cfg := cfgA) hs (full_answers_headers cfgB (xs := xs))
  have h2 := handleFields_data (cfg := cfgA)
    (s := { s with proto := (answers cfgB (headerOnly xs)).foldl (afterField cfgA) s.proto })
    ⟨foldl_ok hs.proto (full_answers_headers cfgB), hs.data⟩ (full_answers_datas cfgB (xs := xs))
  rw [xidCnf, if_neg hne, hreq, Res.bind_ok]
  simp only
  have hp := parse_answer cfgB version xs h hnd
  rw [asRead] at hp
  rw [hp, Res.bind_ok]
  simp only
  rw [handleFields_append h1 h2, Res.bind_ok]

theorem ent_answer (cfgB : CompCfg) (x : Proposal) (hx : x.alg.Legal) (hw : willing cfgB x = true) :
    entityOf (answerField (answerTo (willing cfgB) x)) = entityFor x := by
  unfold answerTo
  rw [if_pos hw]
  exact entityOf_toField x hx

/-- C70 for any legal proposals with different numbers: if A agrees to whatever B agrees to, then for
the numbers proposed both sides have the same afterwards, namely the proposals B agreed to; nothing
else changes on either side.  (The case that A does not agree, and A's habit of deleting all its
entities first, for which C70 does not hold, are below.) -/
theorem c70_exchange_partial (cfgA cfgB : CompCfg) (sA sB : Comps) (hA : WellKept sA)
    (hB : WellKept sB) (version : Option Nat) (xs : List Proposal) (h : Negotiable version xs)
    (hnd : (xs.map (·.entity)).Nodup) (hne : xs ≠ [])
    (hfit : (answerBlock (willing cfgB) xs).length ≤ 256)
    (hcfg : ∀ x ∈ xs, willing cfgB x = true → willing cfgA x = true) (hag : Agree sA sB) :
    ∃ sA' sB', negotiate cfgA cfgB sA sB (xidBlock version xs) = .ok (sA', sB') ∧ Agree sA' sB' ∧
      (∀ x ∈ headerOnly xs, sA'.proto.find? (fun e => e.entity = x.entity) =
        if willing cfgB x then some (entityFor x) else none) ∧
      (∀ x ∈ dataOnly xs, sA'.data.find? (fun e => e.entity = x.entity) =
        if willing cfgB x then some (entityFor x) else none) := by
  obtain ⟨s', as, e1, e2⟩ := c47_answer_partial cfgB sB hB version xs h hne hfit
  obtain ⟨sB', as', f1, hk, p1, p2, d1, d2⟩ := c48_proposals_partial cfgB sB hB version xs h
  rw [e1] at f1
  injection f1 with f1
  injection f1 with f1 f2
  subst f1
  subst f2
  have hA' := (wellKept_iff sA).mp hA
  have hcnf := xidCnf_effect cfgA cfgB sA hA' version xs h hnd
  have hP : ∀ x ∈ headerOnly xs,
      entOf ((answers cfgB (headerOnly xs)).foldl (afterField cfgA) sA.proto) x.entity =
        if willing cfgB x then some (entityFor x) else none := by
    intro x hx
    have hm := (mem_headerOnly.mp hx).1
    have := entOf_foldl_mem (cfg := cfgA) hA'.proto (full_answers_headers cfgB (xs := xs))
      (by rw [answers_entities]; exact (List.reverse_perm _).symm.nodup h.headers)
      (answerField (answerTo (willing cfgB) x))
      (by rw [answers, List.mem_reverse]; exact List.mem_map.mpr ⟨x, hx, rfl⟩)
    have he : (answerField (answerTo (willing cfgB) x)).entity = x.entity :=
      (answerTo_alg (willing cfgB) x).2.1
    rw [he] at this
    rw [this, accepted_answer]
    by_cases hw : willing cfgB x = true
    · rw [hw, hcfg x hm hw, ent_answer cfgB x (h.sendable.legal x hm).2.2.2 hw]
      rfl
    · have hw' : willing cfgB x = false := by simpa using hw
      rw [hw']
      rfl
  have hD : ∀ x ∈ dataOnly xs,
      entOf ((answers cfgB (dataOnly xs)).foldl (afterField cfgA) sA.data) x.entity =
        if willing cfgB x then some (entityFor x) else none := by
    intro x hx
    have hm := (mem_dataOnly.mp hx).1
    have := entOf_foldl_mem (cfg := cfgA) hA'.data (full_answers_datas cfgB (xs := xs))
      (by rw [answers_entities]; exact (List.reverse_perm _).symm.nodup h.datas)
      (answerField (answerTo (willing cfgB) x))
      (by rw [answers, List.mem_reverse]; exact List.mem_map.mpr ⟨x, hx, rfl⟩)
    have he : (answerField (answerTo (willing cfgB) x)).entity = x.entity :=
      (answerTo_alg (willing cfgB) x).2.1
    rw [he] at this
    rw [this, accepted_answer]
    by_cases hw : willing cfgB x = true
    · rw [hw, hcfg x hm hw, ent_answer cfgB x (h.sendable.legal x hm).2.2.2 hw]
      rfl
    · have hw' : willing cfgB x = false := by simpa using hw
      rw [hw']
      rfl
  refine ⟨{ proto := (answers cfgB (headerOnly xs)).foldl (afterField cfgA) sA.proto
            data := (answers cfgB (dataOnly xs)).foldl (afterField cfgA) sA.data }, s', ?_, ?_, hP, hD⟩
  · rw [negotiate, e1, Res.bind_ok]
    simp only
    rw [e2, Res.bind_ok, hcnf, Res.bind_ok]
  · intro n
    constructor
    · by_cases hn : n ∈ (headerOnly xs).map (·.entity)
      · obtain ⟨x, hx, rfl⟩ := List.mem_map.mp hn
        rw [p1 x hx]
        exact hP x hx
      · rw [p2 n hn, ← (hag n).1]
        refine entOf_foldl_other (cfg := cfgA) hA'.proto (full_answers_headers cfgB (xs := xs)) ?_
        intro f hf he
        apply hn
        have hm : f.entity ∈ (answers cfgB (headerOnly xs)).map (·.entity) :=
          List.mem_map.mpr ⟨f, hf, rfl⟩
        rw [answers_entities, List.mem_reverse, he] at hm
        exact hm
    · by_cases hn : n ∈ (dataOnly xs).map (·.entity)
      · obtain ⟨x, hx, rfl⟩ := List.mem_map.mp hn
        rw [d1 x hx]
        exact hD x hx
      · rw [d2 n hn, ← (hag n).2]
        refine entOf_foldl_other (cfg := cfgA) hA'.data (full_answers_datas cfgB (xs := xs)) ?_
        intro f hf he
        apply hn
        have hm : f.entity ∈ (answers cfgB (dataOnly xs)).map (·.entity) :=
          List.mem_map.mpr ⟨f, hf, rfl⟩
        rw [answers_entities, List.mem_reverse, he] at hm
        exact hm

example : Negotiable (some 0) [egHeader, egData] ∧ ([egHeader, egData].map (·.entity)).Nodup ∧
    (answerBlock (willing ⟨true, false⟩) [egHeader, egData]).length ≤ 256 ∧
    (∀ x ∈ [egHeader, egData], willing ⟨true, false⟩ x = true → willing ⟨true, true⟩ x = true) ∧
    Agree {} {} := by
  refine ⟨egNegotiable, by decide, by decide, ?_, fun n => ⟨rfl, rfl⟩⟩
  intro x hx _
  rcases List.mem_cons.mp hx with hx | hx
  · subst hx; decide
  · rw [List.mem_singleton.mp hx]; decide

/-! ### SN-XID.req -/

/-- What a user of SN-XID.req asks for: RFC 1144 with so many slots, V.42bis with such parameters. -/
def requestOf (rfc1144 : Option Nat) (v42bis : Option (Nat × Nat × Nat)) : XidReq :=
  { rfc1144 := rfc1144.map Int.ofNat
    v42bis := v42bis.map (fun p => (Int.ofNat p.1, Int.ofNat p.2.1, Int.ofNat p.2.2)) }

/-- The proposals this stands for: numbers in sequence, PCOMP values 1 and 2, DCOMP value 1, for the
NSAPI of the user. -/
def requested (nsapi : Nat) (rfc1144 : Option Nat) (v42bis : Option (Nat × Nat × Nat)) :
    List Proposal :=
  (match rfc1144 with
    | some s0 => [{ entity := 0, comps := [1, 2], applies := fun n => n == nsapi, alg := .rfc1144 s0 }]
    | none => []) ++
  (match v42bis with
    | some (p0, p1, p2) =>
      [{ entity := if rfc1144.isSome then 1 else 0, comps := [1], applies := fun n => n == nsapi,
         alg := .v42bis p0 p1 p2 }]
    | none => [])

/-- A legal request: an NSAPI for user data, legal values, something asked for at all. -/
structure Asked (nsapi : Nat) (rfc1144 : Option Nat) (v42bis : Option (Nat × Nat × Nat)) : Prop where
  nsapi : 5 ≤ nsapi ∧ nsapi ≤ 15
  slots : ∀ s0, rfc1144 = some s0 → s0 ≤ 255
  params : ∀ p0 p1 p2, v42bis = some (p0, p1, p2) → (Alg.v42bis p0 p1 p2).Legal
  some : rfc1144 ≠ none ∨ v42bis ≠ none

theorem requested_legal {nsapi : Nat} {r : Option Nat} {v : Option (Nat × Nat × Nat)}
    (h : Asked nsapi r v) : ∀ x ∈ requested nsapi r v, x.Legal ∧ Survives x.alg := by
  intro x hx
  rcases List.mem_append.mp hx with hx | hx
  · cases r with
    | none => cases hx
    | some s0 =>
      rw [List.mem_singleton.mp hx]
      exact ⟨⟨Nat.zero_le 31, rfl, by simp, h.slots s0 rfl⟩, trivial⟩
  · cases v with
    | none => cases hx
    | some p =>
      obtain ⟨p0, p1, p2⟩ := p
      rw [List.mem_singleton.mp hx]
      refine ⟨⟨?_, rfl, by simp, h.params p0 p1 p2 rfl⟩, trivial⟩
      show (if r.isSome then 1 else 0) ≤ 31
      split <;> omega

theorem single_nsapi {nsapi : Nat} (h : 5 ≤ nsapi ∧ nsapi ≤ 15) :
    userNsapis.filter (fun n => n == nsapi) = [nsapi] := by
  have : ∀ n : Fin 16, 5 ≤ n.val → userNsapis.filter (fun m => m == n.val) = [n.val] := by decide
  exact this ⟨nsapi, by omega⟩ h.1

theorem requested_fields {nsapi : Nat} {r : Option Nat} {v : Option (Nat × Nat × Nat)}
    (h : 5 ≤ nsapi ∧ nsapi ≤ 15) : reqFields nsapi (requestOf r v) = inMemory (requested nsapi r v) := by
  have hs := single_nsapi h
  have hn : ∀ (e : Nat) (c : List Nat) (a : Alg),
      (⟨e, c, fun n => n == nsapi, a⟩ : Proposal).nsapis = [nsapi] := fun _ _ _ => hs
  cases r with
  | none =>
    cases v with
    | none => rfl
    | some p =>
      obtain ⟨p0, p1, p2⟩ := p
      simp [reqFields, requestOf, inMemory, requested, toField, hn, algKind, algVals, algProfiles,
        Alg.number]
  | some s =>
    cases v with
    | none =>
      simp [reqFields, requestOf, inMemory, requested, toField, hn, algKind, algVals, algProfiles,
        Alg.number]
    | some p =>
      obtain ⟨p0, p1, p2⟩ := p
      simp [reqFields, requestOf, inMemory, requested, toField, hn, algKind, algVals, algProfiles,
        Alg.number]

theorem requested_negotiable {nsapi : Nat} {r : Option Nat} {v : Option (Nat × Nat × Nat)}
    (h : Asked nsapi r v) : Negotiable (some 0) (requested nsapi r v) ∧
      ((requested nsapi r v).map (·.entity)).Nodup ∧ requested nsapi r v ≠ [] ∧
      ∀ acc, (answerBlock acc (requested nsapi r v)).length ≤ 256 := by
  have hl := requested_legal h
  have key : ((requested nsapi r v).map (·.entity)).Nodup ∧ requested nsapi r v ≠ [] ∧
      (fieldBytes (headerOnly (requested nsapi r v))).length ≤ 7 ∧
      (fieldBytes (dataOnly (requested nsapi r v))).length ≤ 10 := by
    have hsome := h.some
    cases r with
    | none =>
      cases v with
      | none => simp at hsome
      | some p =>
        obtain ⟨p0, p1, p2⟩ := p
        refine ⟨by simp [requested], by simp [requested], ?_, ?_⟩
        · simp [requested, headerOnly, Alg.isHeader, fieldBytes]
        · simp [requested, dataOnly, Alg.isHeader, fieldBytes, Proposal.bytes, halves, one, two,
            Alg.bytes]
    | some s =>
      cases v with
      | none =>
        refine ⟨by simp [requested], by simp [requested], ?_, ?_⟩
        · simp [requested, headerOnly, Alg.isHeader, fieldBytes, Proposal.bytes, halves, one, two,
            Alg.bytes]
        · simp [requested, dataOnly, Alg.isHeader, fieldBytes]
      | some p =>
        obtain ⟨p0, p1, p2⟩ := p
        refine ⟨by simp [requested], by simp [requested], ?_, ?_⟩
        · simp [requested, headerOnly, Alg.isHeader, fieldBytes, Proposal.bytes, halves, one, two,
            Alg.bytes]
        · simp [requested, dataOnly, Alg.isHeader, fieldBytes, Proposal.bytes, halves, one, two,
            Alg.bytes]
  obtain ⟨k1, k2, k3, k4⟩ := key
  have hsub : ∀ (p : Proposal → Bool), (((requested nsapi r v).filter p).map (·.entity)).Nodup :=
    fun p => k1.sublist (List.Sublist.map _ List.filter_sublist)
  refine ⟨⟨⟨fun x hx => (hl x hx).1, ?_, .inr k2, by omega, by omega⟩, fun x hx => (hl x hx).2,
    hsub _, hsub _⟩, k1, k2, ?_⟩
  · intro w hw
    injection hw with hw
    omega
  · intro acc
    have ld := answerFields_le acc (dataOnly (requested nsapi r v))
      (fun x hx => (hl x (mem_dataOnly.mp hx).1).1)
    have lp := answerFields_le acc (headerOnly (requested nsapi r v))
      (fun x hx => (hl x (mem_headerOnly.mp hx).1).1)
    have hp : ∀ (t : Nat) (o : Octets), (parameter t o).length ≤ o.length + 2 := by
      intro t o
      unfold parameter
      split
      · simp
      · simp
    have l1 := hp 1 (answerFields acc (dataOnly (requested nsapi r v)))
    have l2 := hp 2 (answerFields acc (headerOnly (requested nsapi r v)))
    have hb : answerBlock acc (requested nsapi r v) = parameter 0 (one 0) ++
      parameter 1 (answerFields acc (dataOnly (requested nsapi r v))) ++
      parameter 2 (answerFields acc (headerOnly (requested nsapi r v))) := rfl
    have l0 : (parameter 0 (one 0)).length = 3 := rfl
    rw [hb, List.length_append, List.length_append]
    omega

/-- SN-XID.req sends the standard's coding of the proposals. -/
theorem xidReq_sends (s : Comps) (hs : WellKept s) {nsapi : Nat} {r : Option Nat}
    {v : Option (Nat × Nat × Nat)} (h : Asked nsapi r v) :
    xidReq s nsapi (requestOf r v) = .ok ({}, xidBlock (some 0) (requested nsapi r v)) := by
  obtain ⟨hn, _, hne, _⟩ := requested_negotiable h
  have hany : ¬ (s.proto ++ s.data).any (fun e => e.algo ≠ 0) = true := by
    rw [List.any_eq_true]
    rintro ⟨e, he, ha⟩
    have h0 : e.algo = 0 := by
      rcases List.mem_append.mp he with he | he
      · exact (hs.header.2 e he).2.1
      · exact (hs.data.2 e he).2.1
    rw [h0] at ha
    simp at ha
  have hc := c46_coding (some 0) (requested nsapi r v) 1024 hn.sendable (by omega)
    (block_length _ _ hn.sendable)
  have hc' : compileXid 1024 (inMemory (requested nsapi r v)) 0 =
      .ok (xidBlock (some 0) (requested nsapi r v),
        (xidBlock (some 0) (requested nsapi r v)).length) := hc
  rw [xidReq, if_neg hany, requested_fields h.nsapi, if_neg (by simp [inMemory, hne]), hc',
    Res.bind_ok]

/-- A whole negotiation from SN-XID.req on. -/
def wholeNegotiation (cfgA cfgB : CompCfg) (sA sB : Comps) (nsapi : Nat) (r : XidReq) :
    Res (Comps × Comps) := do
  let (sA, block) ← xidReq sA nsapi r
  negotiate cfgA cfgB sA sB block

/-- C70 in full: sides that have the same compression entities have the same again after a whole
negotiation, whatever they are configured to accept. -/
def C70Statement : Prop :=
  ∀ (cfgA cfgB : CompCfg) (sA sB : Comps) (nsapi : Nat) (r : Option Nat)
    (v : Option (Nat × Nat × Nat)), WellKept sA → WellKept sB → Agree sA sB → Asked nsapi r v →
    ∃ sA' sB', wholeNegotiation cfgA cfgB sA sB nsapi (requestOf r v) = .ok (sA', sB') ∧
      Agree sA' sB'

/-- C70 for a first negotiation (the other side has no entities yet), if A agrees to whatever B agrees
to. -/
theorem c70_first_partial (cfgA cfgB : CompCfg) (sA : Comps) (nsapi : Nat) (r : Option Nat)
    (v : Option (Nat × Nat × Nat)) (hA : WellKept sA) (h : Asked nsapi r v)
    (h1 : cfgB.rfc1144 = true → cfgA.rfc1144 = true) (h2 : cfgB.v42bis = true → cfgA.v42bis = true) :
    ∃ sA' sB', wholeNegotiation cfgA cfgB sA {} nsapi (requestOf r v) = .ok (sA', sB') ∧
      Agree sA' sB' ∧
      (∀ s0, r = some s0 → (sA'.proto.find? (fun e => e.entity = 0) =
        if cfgB.rfc1144 then some ⟨0, [nsapi], [1, 2], 0, .proto, decide (s0 ≤ 254)⟩ else none)) := by
  obtain ⟨hn, hnd, hne, hfit⟩ := requested_negotiable h
  obtain ⟨sA', sB', e1, e2, e3, e4⟩ := c70_exchange_partial cfgA cfgB {} {} emptyKept emptyKept (some 0)
    (requested nsapi r v) hn hnd hne (hfit _) (by
      intro x _ hw
      unfold willing at hw ⊢
      cases ha : x.alg with
      | rfc1144 s =>
        rw [ha] at hw
        simp only [Bool.and_eq_true] at hw ⊢
        exact ⟨h1 hw.1, hw.2⟩
      | v42bis a b c =>
        rw [ha] at hw
        simp only [Bool.and_eq_true] at hw ⊢
        exact ⟨h2 hw.1, hw.2⟩
      | _ => rw [ha] at hw; cases hw) (fun n => ⟨rfl, rfl⟩)
  refine ⟨sA', sB', ?_, e2, ?_⟩
  · rw [wholeNegotiation, xidReq_sends sA hA h, Res.bind_ok]
    exact e1
  · intro s0 hs
    subst hs
    have := e3 ⟨0, [1, 2], fun n => n == nsapi, .rfc1144 s0⟩ (by
      rw [mem_headerOnly]
      exact ⟨List.mem_append_left _ List.mem_cons_self, rfl⟩)
    have hns : (⟨0, [1, 2], fun n => n == nsapi, .rfc1144 s0⟩ : Proposal).nsapis = [nsapi] :=
      single_nsapi h.nsapi
    rw [willing, entityFor, hns] at this
    simpa [Alg.number, Alg.isHeader] using this

theorem legal42 : ∀ p0 p1 p2, some (1, 2048, 20) = some (p0, p1, p2) →
    (Alg.v42bis p0 p1 p2).Legal := by
  intro a b c h
  injection h with h
  injection h with h1 h2
  injection h2 with h2 h3
  subst h1 h2 h3
  refine ⟨?_, ⟨?_, ?_⟩, ?_, ?_⟩ <;> decide

theorem slots7 : ∀ s0, some 7 = some s0 → s0 ≤ 255 := by
  intro s h
  injection h with h
  omega

example : Asked 5 (some 7) (some (1, 2048, 20)) ∧ WellKept {} :=
  ⟨⟨by omega, slots7, legal42, .inl (by simp)⟩, emptyKept⟩

theorem asked7 : Asked 5 (some 7) none :=
  ⟨by omega, slots7, by simp, .inl (by simp)⟩

/-- A side that proposes header compression but is not configured to accept it does not use it, the
other does. -/
theorem c70_flag_violated :
    ∃ sA' sB', wholeNegotiation ⟨false, false⟩ ⟨true, true⟩ {} {} 5 (requestOf (some 7) none) =
      .ok (sA', sB') ∧ ¬ Agree sA' sB' := by
  refine ⟨{}, { proto := [⟨0, [5], [1, 2], 0, .proto, true⟩] }, by decide +kernel, ?_⟩
  intro h
  have := (h 0).1
  revert this
  decide

/-- A second negotiation, about data compression only: the side that asks forgets the header
compression agreed before, the other does not. -/
theorem c70_second_violated :
    ∃ s1 s2, wholeNegotiation ⟨true, true⟩ ⟨true, true⟩ {} {} 5 (requestOf (some 7) none) =
      .ok (s1, s2) ∧ Agree s1 s2 ∧
    ∃ sA' sB', wholeNegotiation ⟨true, true⟩ ⟨true, true⟩ s1 s2 5
        (requestOf none (some (1, 2048, 20))) = .ok (sA', sB') ∧ ¬ Agree sA' sB' := by
  refine ⟨{ proto := [⟨0, [5], [1, 2], 0, .proto, true⟩] },
    { proto := [⟨0, [5], [1, 2], 0, .proto, true⟩] }, by decide +kernel, fun n => ⟨rfl, rfl⟩,
    { data := [⟨0, [5], [1], 0, .data, true⟩] },
    { proto := [⟨0, [5], [1, 2], 0, .proto, true⟩], data := [⟨0, [5], [1], 0, .data, true⟩] },
    by decide +kernel, ?_⟩
  intro h
  have := (h 0).1
  revert this
  decide

theorem c70_statement_violated : ¬ C70Statement := by
  intro h
  obtain ⟨sA, sB, e1, e2⟩ := h ⟨false, false⟩ ⟨true, true⟩ {} {} 5 (some 7) none emptyKept emptyKept
    (fun n => ⟨rfl, rfl⟩) asked7
  obtain ⟨sA', sB', f1, f2⟩ := c70_flag_violated
  rw [e1] at f1
  injection f1 with f1
  injection f1 with f1 f3
  subst f1
  subst f3
  exact f2 e2

end Verif.Props
