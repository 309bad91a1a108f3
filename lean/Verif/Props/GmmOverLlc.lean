import Verif.Gmm.OverLlc
import Verif.Props.GmmStack
import Verif.Props.LlcMgmt
/-!
# C162: a mobile station that is accepted by the network becomes registered, with LLC below
-/
namespace Verif.Props
open Verif Verif.Gmm Verif.Llc Verif.Spec

/-- C162: in every state of a mobile station that is being attached, ATTACH ACCEPT, with or without a new
P-TMSI, that LLC delivers to it makes it registered, provided that the neighbours other than LLC accept what
they are given. -/
def C162Statement : Prop :=
  ∀ cfg s, OverReach cfg s → s.g.st = .regInit →
    ∀ t u pdu result timer prio ra new ok s' outs em, ra.length = 6 →
      (∀ q, new = some q → 0xc0000000 ≤ q ∧ q < 0xffffffff) →
      Out.unitdataInd u 1 (acceptMsg result timer prio ra new) ∈ (s.c.step (.rxPdu t pdu)).out →
      (s.g.tlli = u ∨ s.g.oldTlli = u) → (∀ o, llcOpOf o = none → ok o = true) →
      OverLlc cfg ⟨s.g, (s.c.step (.rxPdu t pdu)).ctx⟩ ⟨.rx (acceptMsg result timer prio ra new), ok⟩ s' outs em →
      s'.g.st = .reg

/-! ## The names LLC knows -/

/-- LLC has an entity for a TLLI. -/
def HasTlli (c : Ctx) (t : Nat) : Prop := (c.find t).isSome

theorem hasTlli_iff {c : Ctx} {t : Nat} : HasTlli c t ↔ ∃ m ∈ c.llmes, m.tlli = t ∨ m.oldTlli = t := by
  unfold HasTlli Ctx.find
  rw [List.findIdx?_isSome]
  simp

/-- The names of the entities of LLC. -/
def llcNames (c : Ctx) : List (Nat × Nat) := c.llmes.map fun m => (m.tlli, m.oldTlli)

theorem hasTlli_names {c : Ctx} {t : Nat} : HasTlli c t ↔ ∃ p ∈ llcNames c, p.1 = t ∨ p.2 = t := by
  rw [hasTlli_iff]
  unfold llcNames
  simp

theorem names_set {c : Ctx} {i : Nat} {m m' : Llme} (hm : c.llmes[i]? = some m) (h1 : m'.tlli = m.tlli)
    (h2 : m'.oldTlli = m.oldTlli) : llcNames { c with llmes := c.llmes.set i m' } = llcNames c := by
  obtain ⟨hi, hm'⟩ := List.getElem?_eq_some_iff.1 hm
  unfold llcNames
  rw [List.map_set]
  apply List.ext_getElem?
  intro j
  rw [List.getElem?_set]
  split
  · rename_i e
    subst e
    simp [hi, hm', h1, h2]
  · rfl

theorem names_onLle (c : Ctx) (i s : Nat) (f : Llme → Lle → LleRes) : llcNames (c.onLle i s f).ctx = llcNames c := by
  unfold Ctx.onLle
  split
  · rfl
  · split
    · rfl
    · rename_i m hm
      exact names_set hm rfl rfl

theorem names_onKnown (c : Ctx) (t s : Nat) (f : Llme → Lle → LleRes) :
    llcNames (c.onKnown t s f).ctx = llcNames c := by
  unfold Ctx.onKnown
  split
  · rfl
  · exact names_onLle _ _ _ _

theorem names_suspended (c : Ctx) (t : Nat) (b : Bool) : llcNames (c.setSuspended t b).ctx = llcNames c := by
  unfold Ctx.setSuspended
  split
  · rfl
  · split
    · rfl
    · rename_i m hm
      exact names_set hm rfl rfl

/-- Only LLGMM-ASSIGN.req makes LLC forget a name. -/
theorem hasTlli_step {c : Ctx} {t : Nat} (op : Op) (ho : ∀ a b, op ≠ .assignReq a b) (h : HasTlli c t) :
    HasTlli (c.step op).ctx t := by
  have keep : ∀ c' : Ctx, llcNames c' = llcNames c → HasTlli c' t := fun c' e => by
    rw [hasTlli_names, e, ← hasTlli_names]; exact h
  have more : ∀ (c' : Ctx) u, llcNames c' = llcNames (c.alloc u) → HasTlli c' t := fun c' u e => by
    rw [hasTlli_names, e]
    obtain ⟨p, hp, hp'⟩ := hasTlli_names.1 h
    exact ⟨p, List.mem_cons_of_mem _ hp, hp'⟩
  cases op with
  | unitdataReq u s p d =>
    show HasTlli (c.unitdataReq u s p d).ctx t
    unfold Ctx.unitdataReq
    dsimp only
    split
    · exact keep _ (names_onLle _ _ _ _)
    · split
      · exact more _ u rfl
      · exact more _ u (names_onLle _ _ _ _)
  | xidReq u s l => exact keep _ (names_onKnown _ _ _ _)
  | xidResp u s l => exact keep _ (names_onKnown _ _ _ _)
  | establishReq u s => exact keep _ (names_onKnown _ _ _ _)
  | assignReq a b => exact absurd rfl (ho a b)
  | resetReq u i => exact keep _ (names_onKnown _ _ _ _)
  | triggerReq u b => exact keep _ (names_onKnown _ _ _ _)
  | suspendReq u => exact keep _ (names_suspended _ _ _)
  | resumeReq u => exact keep _ (names_suspended _ _ _)
  | rxPdu u d =>
    show HasTlli (c.rxPdu u d).ctx t
    unfold Ctx.rxPdu
    split
    · exact h
    · exact h
    · rename_i p _
      split
      · exact h
      · unfold Ctx.lleForRx
        cases hf : c.find u with
        | some i => exact keep _ (names_onLle _ _ _ _)
        | none =>
          dsimp only
          split
          · rename_i e
            split at e
            · cases e
            · injection e with e1 e2; subst e1; exact h
          · rename_i e
            split at e
            · injection e with e1 e2; subst e1; exact more _ u (names_onLle _ _ _ _)
            · cases e

/-- An LL-UNITDATA.req makes LLC know the TLLI. -/
theorem hasTlli_unitdata (c : Ctx) (t s p : Nat) (d : Octets) : HasTlli (c.step (.unitdataReq t s p d)).ctx t := by
  show HasTlli (c.unitdataReq t s p d).ctx t
  unfold Ctx.unitdataReq
  dsimp only
  have fresh : ∀ c' : Ctx, llcNames c' = llcNames (c.alloc t) → HasTlli c' t := fun c' e => by
    rw [hasTlli_names, e]
    exact ⟨(t, Llc.tlliUnassigned), List.mem_cons_self, .inl rfl⟩
  split
  · rename_i i hi
    rw [hasTlli_names, names_onLle, ← hasTlli_names]
    unfold HasTlli
    rw [hi]
    rfl
  · split
    · exact fresh _ rfl
    · exact fresh _ (names_onLle _ _ _ _)

/-! ## LLGMM-ASSIGN.req -/

/-- The TLLI by which LLC looks for the entity to assign a TLLI to. -/
def assignKey (old new : Nat) : Nat := if old ≠ 0xffffffff then old else new

/-- LLGMM-ASSIGN.req for an entity LLC knows is accepted; LLC knows both names afterwards, and under the new
one it finds the entity that has it, provided that it did not know it before. -/
theorem assign_known {c : Ctx} {old new : Nat} (hn : new ≠ 0xffffffff) (hk : HasTlli c (assignKey old new)) :
    (c.step (.assignReq old new)).rc = .ok () ∧ HasTlli (c.step (.assignReq old new)).ctx new ∧
    (old ≠ 0xffffffff → HasTlli (c.step (.assignReq old new)).ctx old) ∧
    (old = 0xffffffff ∨ ¬ HasTlli c new → ∃ (i : Nat) (m : Llme), (c.step (.assignReq old new)).ctx.find new = some i ∧
      (c.step (.assignReq old new)).ctx.llmes[i]? = some m ∧ m.tlli = new) := by
  show (c.assignReq old new).rc = .ok () ∧ HasTlli (c.assignReq old new).ctx new ∧
    (old ≠ 0xffffffff → HasTlli (c.assignReq old new).ctx old) ∧
    (old = 0xffffffff ∨ ¬ HasTlli c new → ∃ (i : Nat) (m : Llme), (c.assignReq old new).ctx.find new = some i ∧
      (c.assignReq old new).ctx.llmes[i]? = some m ∧ m.tlli = new)
  unfold Ctx.assignReq
  rw [if_neg (fun h => hn h.2)]
  obtain ⟨i, hi⟩ := Option.isSome_iff_exists.1 hk
  have hi' : c.find (if old ≠ Llc.tlliUnassigned then old else new) = some i := hi
  rw [hi']
  obtain ⟨h1, h2, h3⟩ := List.findIdx?_eq_some_iff_getElem.1 hi
  have hm : c.llmes[i]? = some c.llmes[i] := List.getElem?_eq_getElem h1
  dsimp only
  rw [hm]
  dsimp only
  have key : ∃ m', c.llmes[i].assign old new = some m' ∧ m'.tlli = new ∧ (old ≠ 0xffffffff → m'.oldTlli = old) := by
    unfold Llme.assign
    split
    · rename_i e
      split
      · exact ⟨_, rfl, rfl, fun h => absurd e h⟩
      · exact ⟨_, rfl, rfl, fun h => absurd e h⟩
    · rw [if_pos (show new ≠ Llc.tlliUnassigned from hn)]
      exact ⟨_, rfl, rfl, fun _ => rfl⟩
  obtain ⟨m', e, e1, e2⟩ := key
  rw [e]
  dsimp only
  have mem : m' ∈ c.llmes.set i m' := List.mem_set h1 m'
  refine ⟨rfl, hasTlli_iff.2 ⟨m', mem, .inl e1⟩, fun h => hasTlli_iff.2 ⟨m', mem, .inr (e2 h)⟩, fun hf => ?_⟩
  refine ⟨i, m', ?_, List.getElem?_set_self h1, e1⟩
  unfold Ctx.find
  rw [List.findIdx?_eq_some_iff_getElem]
  refine ⟨by simpa using h1, by simp [e1], fun j hj => ?_⟩
  have hne : i ≠ j := by omega
  have hjl : j < c.llmes.length := by omega
  have : (c.llmes.set i m')[j]'(by simpa using hjl) = c.llmes[j] := by
    rw [List.getElem_set]; exact if_neg hne
  simp only [this]
  rcases hf with hf | hf
  · have := h3 j hj
    unfold assignKey at this
    rw [if_neg (by simpa using hf)] at this
    exact this
  · intro hc
    exact hf (hasTlli_iff.2 ⟨c.llmes[j], List.getElem_mem hjl, by simpa using hc⟩)

/-- LLGMM-ASSIGN.req for an entity LLC does not know is refused and changes nothing. -/
theorem assign_unknown {c : Ctx} {old new : Nat}
    (hk : (old = 0xffffffff ∧ new = 0xffffffff) ∨ ¬ HasTlli c (assignKey old new)) :
    accepted (c.step (.assignReq old new)).rc = false ∧ (c.step (.assignReq old new)).ctx = c ∧
    (c.step (.assignReq old new)).out = [] := by
  show accepted (c.assignReq old new).rc = false ∧ (c.assignReq old new).ctx = c ∧ (c.assignReq old new).out = []
  unfold Ctx.assignReq
  split
  · exact ⟨rfl, rfl, rfl⟩
  · rename_i h
    rcases hk with hk | hk
    · exact absurd hk h
    · have : c.find (if old ≠ Llc.tlliUnassigned then old else new) = none := by
        cases e : c.find (if old ≠ Llc.tlliUnassigned then old else new) with
        | none => rfl
        | some i => exact absurd (show HasTlli c (assignKey old new) by
            unfold HasTlli assignKey; exact (congrArg Option.isSome e).trans rfl) hk
      rw [this]
      exact ⟨rfl, rfl, rfl⟩

/-! ## LL-UNITDATA.req -/

/-- LLC is in a state that its operations lead to: the variables and parameters of all entities are legal. -/
def LlcOk (c : Ctx) : Prop := SapiOk c ∧ CtxLegal c ∧ c.loc = .ms

theorem loc_step (c : Ctx) (op : Op) : (c.step op).ctx.loc = c.loc := by
  have onLle : ∀ (c : Ctx) i s f, (c.onLle i s f).ctx.loc = c.loc := by
    intro c i s f
    unfold Ctx.onLle
    repeat' (first | rfl | split)
  have onKnown : ∀ (c : Ctx) i s f, (c.onKnown i s f).ctx.loc = c.loc := by
    intro c i s f
    unfold Ctx.onKnown
    split
    · rfl
    · exact onLle _ _ _ _
  have susp : ∀ (c : Ctx) t b, (c.setSuspended t b).ctx.loc = c.loc := by
    intro c t b
    unfold Ctx.setSuspended
    repeat' (first | rfl | split)
  cases op with
  | unitdataReq u s p d =>
    show (c.unitdataReq u s p d).ctx.loc = _
    unfold Ctx.unitdataReq
    dsimp only
    split
    · exact onLle _ _ _ _
    · split
      · rfl
      · exact onLle _ _ _ _
  | xidReq u s l => exact onKnown _ _ _ _
  | xidResp u s l => exact onKnown _ _ _ _
  | establishReq u s => exact onKnown _ _ _ _
  | assignReq a b =>
    show (c.assignReq a b).ctx.loc = _
    unfold Ctx.assignReq
    repeat' (first | rfl | split)
  | resetReq u i => exact onKnown _ _ _ _
  | triggerReq u b => exact onKnown _ _ _ _
  | suspendReq u => exact susp _ _ _
  | resumeReq u => exact susp _ _ _
  | rxPdu u d =>
    show (c.rxPdu u d).ctx.loc = _
    unfold Ctx.rxPdu
    split
    · rfl
    · rfl
    · split
      · rfl
      · unfold Ctx.lleForRx
        cases hf : c.find u with
        | some i => exact onLle _ _ _ _
        | none =>
          dsimp only
          split
          · rename_i e
            split at e
            · cases e
            · injection e with e1 e2; subst e1; rfl
          · rename_i e
            split at e
            · injection e with e1 e2; subst e1; exact onLle _ _ _ _
            · cases e

theorem llcOk_step {c : Ctx} (h : LlcOk c) (op : Op) : LlcOk (c.step op).ctx :=
  ⟨sapiOk_step h.1 op, legal_step h.2.1 op, (loc_step c op).trans h.2.2⟩

/-- A message of GMM of at most 140 octets leaves in one UI frame. -/
theorem gmm_unitdata {c : Ctx} (h : LlcOk c) {t : Nat} {pdu : Octets} (hl : pdu.length ≤ 140) (hk : HasTlli c t) :
    (c.step (.unitdataReq t 1 1 pdu)).rc = .ok () ∧ ∃ (i : Nat) (m : Llme) (nu : Nat), c.find t = some i ∧ c.llmes[i]? = some m ∧
      nu < 512 ∧ (c.step (.unitdataReq t 1 1 pdu)).out = [.down false m.tlli 1 1 (uiFrame false 1 nu pdu)] := by
  obtain ⟨i, hi⟩ := Option.isSome_iff_exists.1 hk
  obtain ⟨h1, -, -⟩ := List.findIdx?_eq_some_iff_getElem.1 hi
  have hm : c.llmes[i]? = some c.llmes[i] := List.getElem?_eq_getElem h1
  have mem : c.llmes[i] ∈ c.llmes := List.getElem_mem h1
  obtain ⟨e1, e2⟩ := unitdata_out (prio := 1) (data := pdu) (by omega : 1 < 16) (.inl ⟨i, hi, hm⟩ : Serves c t 1 c.llmes[i])
  rw [e1, e2, if_neg (by simp)]
  generalize c.llmes[i] = m at *
  obtain ⟨s1, s2⟩ := h.1 m mem 1
  have n : 140 ≤ (m.lle 1).params.n201u := by
    rcases (h.2.1 m mem 1).1 with e | e
    · rw [e]; decide
    · exact e.1
  unfold Lle.txUi
  rw [if_neg (by omega), s1, h.2.2]
  have : encodeCr .ms false = false := rfl
  rw [this, encode_ui 1 _ false pdu (by omega) s2]
  exact ⟨rfl, i, m, _, hi, hm, s2, rfl⟩

/-! ## GMM and LLC together -/

theorem take_cons {ok : GmmOut → Bool} {c c' : Ctx} {o : GmmOut} {l : List GmmOut} {em : List Out} {op : Op}
    (ho : llcOpOf o = some op) (h : llcTake ok c (o :: l) = some (c', em)) :
    ok o = accepted (c.step op).rc ∧ ∃ em', llcTake ok (c.step op).ctx l = some (c', em') ∧
      em = (c.step op).out ++ em' := by
  unfold llcTake at h
  rw [ho] at h
  dsimp only at h
  split at h
  · rename_i e
    obtain ⟨x, hx, hx'⟩ := Option.map_eq_some_iff.1 h
    injection hx' with h1 h2
    subst h1 h2
    exact ⟨e, x.2, hx, rfl⟩
  · cases h

theorem take_none {ok : GmmOut → Bool} {c : Ctx} : ∀ {l : List GmmOut}, (∀ o ∈ l, llcOpOf o = none) →
    llcTake ok c l = some (c, [])
  | [], _ => rfl
  | o :: l, h => by
    unfold llcTake
    rw [h o List.mem_cons_self]
    exact take_none fun x hx => h x (List.mem_cons_of_mem _ hx)

theorem take_ok {ok : GmmOut → Bool} : ∀ {l : List GmmOut} {c c' : Ctx} {em : List Out}, LlcOk c →
    llcTake ok c l = some (c', em) → LlcOk c'
  | [], c, c', em, h, e => by
    injection e with e; injection e with e1 e2; subst e1; exact h
  | o :: l, c, c', em, h, e => by
    cases ho : llcOpOf o with
    | none =>
      unfold llcTake at e
      rw [ho] at e
      exact take_ok h e
    | some op =>
      obtain ⟨-, em', e', -⟩ := take_cons ho e
      exact take_ok (llcOk_step h op) e'

/-- In every history LLC's variables and parameters are legal. -/
theorem overReach_ok {cfg : GmmCfg} {s : LlcStack} (h : OverReach cfg s) : LlcOk s.c := by
  induction h with
  | start _ _ _ _ => exact ⟨fun m hm => (by cases hm), fun m hm => (by cases hm), rfl⟩
  | event _ _ ho ih =>
    obtain ⟨r, -, -, -, e⟩ := ho
    exact take_ok ih e
  | frame _ _ _ ho ih =>
    obtain ⟨r, -, -, -, e⟩ := ho
    exact take_ok (llcOk_step ih _) e
  | llc op _ _ ih => exact llcOk_step ih op

theorem attachDone_llc {ok : GmmOut → Bool} (g : Gmme) : ∀ o ∈ (attachDone ok g).2, llcOpOf o = none := by
  intro o ho
  unfold attachDone at ho
  have := submit_sub ho
  rcases List.mem_append.1 this with h | h
  · split at h
    · rw [List.mem_singleton] at h; subst h; rfl
    · cases h
  · split at h
    · rw [List.mem_singleton] at h; subst h; rfl
    · cases h

/-- The end of ATTACH ACCEPT when LLC knows the mobile station. -/
theorem over_accept_end {cfg : GmmCfg} {ok : GmmOut → Bool} {g : Gmme} {c c' : Ctx} {em : List Out} {r : GmmStep}
    (hst : g.st = .regInit) (hc : LlcOk c) (hn : g.tlli ≠ 0xffffffff) (hk : HasTlli c (assignKey g.oldTlli g.tlli))
    (hok : ∀ o, llcOpOf o = none → ok o = true) (e : attAccEnd cfg ok (g, true) = .ok r)
    (et : llcTake ok c r.out = some (c', em)) :
    r.g = toReg g ∧ HasTlli c' g.tlli ∧ (g.oldTlli ≠ 0xffffffff → HasTlli c' g.oldTlli) ∧
    ∃ t nu, nu < 512 ∧ Out.down false t 1 1 (uiFrame false 1 nu attachCompl) ∈ em ∧
      (g.oldTlli = 0xffffffff ∨ ¬ HasTlli c g.tlli → t = g.tlli) := by
  obtain ⟨a1, a2, a3, a4⟩ := assign_known hn hk
  have c1 := llcOk_step hc (.assignReq g.oldTlli g.tlli)
  obtain ⟨u1, i, m, nu, u2, u3, u4, u5⟩ := gmm_unitdata (pdu := attachCompl) c1 (by decide) a2
  have k1 := hasTlli_step (.unitdataReq g.tlli 1 1 attachCompl) (fun _ _ h => by cases h) a2
  have k2 := fun h => hasTlli_step (.unitdataReq g.tlli 1 1 attachCompl) (fun _ _ h => by cases h) (a3 h)
  have f1 : llcOpOf (assignOut g) = some (.assignReq g.oldTlli g.tlli) := rfl
  have f2 : llcOpOf (rrAssignOut g) = none := rfl
  have f3 : llcOpOf (.llUnitdata g.tlli attachCompl) = some (.unitdataReq g.tlli 1 1 attachCompl) := rfl
  unfold attAccEnd at e
  rw [if_pos rfl] at e
  unfold submitThen at e
  dsimp only at e
  unfold submit at e
  by_cases o1 : ok (assignOut g) = true
  · rw [if_pos o1] at e
    unfold submit at e
    rw [if_pos (hok _ f2)] at e
    unfold submit at e
    by_cases o3 : ok (.llUnitdata g.tlli attachCompl) = true
    · rw [if_pos o3] at e
      unfold submit at e
      rw [if_pos rfl] at e
      unfold dispatch gmmFsm at e
      rw [hst] at e
      injection e with e
      subst e
      have et' : llcTake ok c (assignOut g :: rrAssignOut g :: GmmOut.llUnitdata g.tlli attachCompl ::
        (attachDone ok g).2) = some (c', em) := et
      obtain ⟨-, em1, t1, rfl⟩ := take_cons f1 et'
      have t1' : llcTake ok (c.step (.assignReq g.oldTlli g.tlli)).ctx (GmmOut.llUnitdata g.tlli attachCompl ::
        (attachDone ok g).2) = some (c', em1) := t1
      obtain ⟨-, em2, t2, rfl⟩ := take_cons f3 t1'
      rw [take_none (attachDone_llc g)] at t2
      injection t2 with t2
      injection t2 with t2 t3
      subst t2 t3
      refine ⟨rfl, k1, k2, m.tlli, nu, u4, ?_, ?_⟩
      · rw [u5]; simp
      · intro h
        obtain ⟨j, m2, b1, b2, b3⟩ := a4 h
        rw [b1] at u2
        injection u2 with u2
        subst u2
        rw [b2] at u3
        injection u3 with u3
        subst u3
        exact b3
    · rw [if_neg o3] at e
      exfalso
      injection e with e
      subst e
      have et' : llcTake ok c [assignOut g, rrAssignOut g, GmmOut.llUnitdata g.tlli attachCompl] = some (c', em) := et
      obtain ⟨-, em1, t1, -⟩ := take_cons f1 et'
      have t1' : llcTake ok (c.step (.assignReq g.oldTlli g.tlli)).ctx [GmmOut.llUnitdata g.tlli attachCompl] =
        some (c', em1) := t1
      obtain ⟨x, -⟩ := take_cons f3 t1'
      rw [u1] at x
      exact o3 x
  · rw [if_neg o1] at e
    exfalso
    injection e with e
    subst e
    obtain ⟨x, -⟩ := take_cons f1 et
    rw [a1] at x
    exact o1 x

/-- What ATTACH ACCEPT without a P-TMSI does. -/
theorem rx_accept_none {cfg : GmmCfg} {ok : GmmOut → Bool} {g : Gmme} {result timer prio : UInt8} {ra : Octets}
    (hra : ra.length = 6) :
    ∃ g2, gmmStep cfg ok g (.rx (acceptMsg result timer prio ra none)) = attAccEnd cfg ok (g2, true) ∧
      g2.tlli = g.tlli ∧ g2.oldTlli = g.oldTlli ∧ g2.st = g.st := by
  match ra, hra with
  | [a, b, c, d, e, f], _ =>
    refine ⟨applyFixed g timer.toNat (decide (result.toNat / 16 ≠ 0)) [a, b, c, d, e, f], rfl, ?_⟩
    obtain ⟨n1, n2, -, n4, -⟩ := applyFixed_names g timer.toNat (decide (result.toNat / 16 ≠ 0)) [a, b, c, d, e, f]
    exact ⟨n2, n1, n4⟩

/-- LLC knows the mobile station under its TLLI, and under the old one if there is one. -/
def LlcKnows (s : LlcStack) : Prop :=
  s.g.tlli ≠ 0xffffffff ∧ HasTlli s.c s.g.tlli ∧ (s.g.oldTlli ≠ 0xffffffff → HasTlli s.c s.g.oldTlli)

/-- The TLLI after an ATTACH ACCEPT with or without a P-TMSI. -/
def newTlli (s : LlcStack) : Option Nat → Nat
  | some q => q % 0x40000000 + 0xc0000000
  | none => s.g.tlli

/-- C162, what holds: a mobile station that LLC knows is registered, ATTACH COMPLETE leaves in a UI frame, and
LLC knows the mobile station afterwards under its TLLI, which is the one of the new P-TMSI if there is
one. -/
theorem c162_partial (cfg : GmmCfg) (s : LlcStack) (hr : OverReach cfg s) (hst : s.g.st = .regInit)
    (hk : LlcKnows s) (t u : Nat) (pdu : Octets) (result timer prio : UInt8) (ra : Octets) (new : Option Nat)
    (ok : GmmOut → Bool) (s' : LlcStack) (outs : List GmmOut) (em : List Out) (hra : ra.length = 6)
    (hq : ∀ q, new = some q → 0xc0000000 ≤ q ∧ q < 0xffffffff)
    (_hd : Out.unitdataInd u 1 (acceptMsg result timer prio ra new) ∈ (s.c.step (.rxPdu t pdu)).out)
    (hok : ∀ o, llcOpOf o = none → ok o = true)
    (h : OverLlc cfg ⟨s.g, (s.c.step (.rxPdu t pdu)).ctx⟩ ⟨.rx (acceptMsg result timer prio ra new), ok⟩ s' outs em) :
    s'.g.st = .reg ∧ s'.g.tlli = newTlli s new ∧ LlcKnows s' ∧
    ∃ v nu, nu < 512 ∧ Out.down false v 1 1 (uiFrame false 1 nu attachCompl) ∈ em ∧
      (∀ q, new = some q → ¬ HasTlli (s.c.step (.rxPdu t pdu)).ctx s'.g.tlli → v = s'.g.tlli) := by
  have hc := llcOk_step (overReach_ok hr) (.rxPdu t pdu)
  obtain ⟨k1, k2, k3⟩ := hk
  have k2' := hasTlli_step (.rxPdu t pdu) (fun _ _ h => by cases h) k2
  have k3' := fun h => hasTlli_step (.rxPdu t pdu) (fun _ _ h => by cases h) (k3 h)
  obtain ⟨r, e1, e2, -, e4⟩ := h
  dsimp only at e1 e4
  generalize (s.c.step (.rxPdu t pdu)).ctx = c at *
  obtain ⟨g', c'⟩ := s'
  dsimp only at *
  subst e2
  cases new with
  | none =>
    obtain ⟨g2, f1, f2, f3, f4⟩ := rx_accept_none (cfg := cfg) (ok := ok) (g := s.g) (result := result)
      (timer := timer) (prio := prio) hra
    rw [f1] at e1
    have hkey : HasTlli c (assignKey g2.oldTlli g2.tlli) := by
      unfold assignKey
      rw [f2, f3]
      split
      · rename_i x; exact k3' x
      · exact k2'
    obtain ⟨p1, p2, p3, v, nu, p4, p5, -⟩ := over_accept_end (f4.trans hst) hc (by rw [f2]; exact k1) hkey hok e1 e4
    rw [p1]
    exact ⟨rfl, f2, ⟨by rw [show (toReg g2).tlli = g2.tlli from rfl, f2]; exact k1, p2, p3⟩, v, nu, p4, p5,
      fun q hq => (by cases hq)⟩
  | some q =>
    obtain ⟨q1, q2⟩ := hq q rfl
    obtain ⟨g2, f1, f2, f3, -⟩ := rx_accept (cfg := cfg) (ok := ok) (g := s.g) (result := result)
      (timer := timer) (prio := prio) (q := q) hra (by omega)
    rw [f1] at e1
    have ht : (updatePtmsi g2 q).tlli = q % 0x40000000 + 0xc0000000 := by
      show localTlli q = _
      unfold localTlli
      rfl
    have ho : (updatePtmsi g2 q).oldTlli = s.g.tlli := f2
    have hs : (updatePtmsi g2 q).st = .regInit := f3.trans hst
    have hn : (updatePtmsi g2 q).tlli ≠ 0xffffffff := by rw [ht]; omega
    have hkey : HasTlli c (assignKey (updatePtmsi g2 q).oldTlli (updatePtmsi g2 q).tlli) := by
      unfold assignKey
      rw [ho, if_pos k1]
      exact k2'
    obtain ⟨p1, p2, p3, v, nu, p4, p5, p6⟩ := over_accept_end hs hc hn hkey hok e1 e4
    rw [p1]
    exact ⟨rfl, ht, ⟨hn, p2, p3⟩, v, nu, p4, p5, fun _ _ x => p6 (.inr x)⟩

/-! ## The first attach -/

theorem attachReq_length {attType ptmsi sig t3314 : Nat} {imsi : List Nat} {ra b : Octets} (hra : ra.length = 6)
    (h : buildAttachReq attType false ptmsi sig imsi ra t3314 = some b) : b.length ≤ 140 := by
  have hc : encodeRaAccCap.length ≤ 20 := by decide +kernel
  have hm : (lv msNetCapDef).length ≤ 20 := by decide +kernel
  have hd : drxParam.length ≤ 20 := by decide +kernel
  unfold buildAttachReq at h
  simp only [Bool.false_eq_true, if_false] at h
  injection h with h
  subst h
  have h2 : (lv (miTmsi ptmsi)).length = 6 := rfl
  have h3 : (if False = False ∧ ptmsi ≠ reservedTmsi then sigIe sig else []).length ≤ 4 := by
    split
    · exact Nat.le_refl _
    · exact Nat.zero_le _
  simp only [List.length_append, List.length_cons, List.length_nil, hra, h2] at *
  split <;> simp only [sigIe, List.length_cons, List.length_nil] <;> omega

/-- What GMMREG-ATTACH.req does in a mobile station that is not attached: ATTACH REQUEST is handed to LLC,
which accepts it and knows the TLLI of the mobile station from then on. -/
theorem attach_first {cfg : GmmCfg} {s s' : LlcStack} {prm : AttachPrm} {ok : GmmOut → Bool}
    {outs : List GmmOut} {em : List Out} (hc : LlcOk s.c) (hst : s.g.st = .dereg) (hw : prm.withImsi = false)
    (hra : prm.ra.length = 6) (h : OverLlc cfg s ⟨.attachReq prm, ok⟩ s' outs em) :
    s'.g.st = .regInit ∧ s'.g.tlli = s.g.tlli ∧ s'.g.oldTlli = s.g.oldTlli ∧
    ∃ b, s'.c = (s.c.step (.unitdataReq s.g.tlli 1 1 b)).ctx ∧ b.length ≤ 140 := by
  obtain ⟨r, e1, e2, e3, e4⟩ := h
  obtain ⟨g', c'⟩ := s'
  dsimp only at *
  subst e2
  injection e1 with e1
  subst e1
  unfold attachReqAct requestAttach dispatch at *
  simp only [gmmFsm, storeIdentities, hst, startAttach, txAttReq, hw] at *
  cases hb : buildAttachReq prm.attType false s.g.ptmsi prm.sig s.g.imsi prm.ra cfg.t3314 with
  | none =>
    exfalso
    unfold buildAttachReq at hb
    simp only [Bool.false_eq_true, if_false] at hb
    cases hb
  | some b =>
    rw [hb] at e4
    have hl := attachReq_length hra hb
    dsimp only at e4 ⊢
    rw [List.nil_append] at e4
    obtain ⟨x, em', t1, -⟩ := take_cons rfl e4
    injection t1 with t1
    injection t1 with t1 t2
    subst t1
    have hacc : (s.c.step (.unitdataReq s.g.tlli 1 1 b)).rc = .ok () := by
      cases hf : s.c.find s.g.tlli with
      | some i => exact (gmm_unitdata hc hl (by unfold HasTlli; rw [hf]; rfl)).1
      | none =>
        obtain ⟨-, u⟩ := unitdata_out (prio := 1) (data := b) (by omega : 1 < 16)
          (.inr ⟨⟨hf, rfl⟩, by omega⟩ : Serves s.c s.g.tlli 1 (Llme.alloc s.g.tlli))
        rw [u, if_neg (by simp)]
        unfold Lle.txUi
        rw [if_neg (by show ¬ b.length > 400; omega)]
        rw [show ((Llme.alloc s.g.tlli).lle 1).sapi = 1 from rfl, show ((Llme.alloc s.g.tlli).lle 1).vuSend = 0 from rfl,
          encode_ui 1 0 _ b (by omega) (by omega)]
    rw [hacc] at x
    rw [if_pos (show ok (.llUnitdata s.g.tlli b) = true from x)]
    exact ⟨rfl, rfl, rfl, b, rfl, hl⟩

/-- A mobile station's first attach: it is being attached and LLC knows it once ATTACH REQUEST has been sent,
whatever the other users of LLC have done before. -/
theorem c162_first_attach (cfg : GmmCfg) (s s' : LlcStack) (hr : OverReach cfg s) (prm : AttachPrm)
    (ok : GmmOut → Bool) (outs : List GmmOut) (em : List Out) (hst : s.g.st = .dereg)
    (ht : s.g.tlli ≠ 0xffffffff) (ho : s.g.oldTlli = 0xffffffff) (hw : prm.withImsi = false)
    (hra : prm.ra.length = 6) (h : OverLlc cfg s ⟨.attachReq prm, ok⟩ s' outs em) :
    s'.g.st = .regInit ∧ LlcKnows s' := by
  obtain ⟨h1, h2, h3, b, h4, -⟩ := attach_first (overReach_ok hr) hst hw hra h
  refine ⟨h1, by rw [h2]; exact ht, ?_, fun x => absurd (h3.trans ho) x⟩
  rw [h2, h4]
  exact hasTlli_unitdata _ _ _ _ _

/-- LLC knows the mobile station from the first ATTACH REQUEST until the answer comes: the other users of LLC,
and the retransmissions of ATTACH REQUEST, change nothing about it. -/
theorem c162_waiting (cfg : GmmCfg) (s : LlcStack) (hk : LlcKnows s) :
    (∀ op, NotLlgmm op → LlcKnows ⟨s.g, (s.c.step op).ctx⟩) ∧
    (∀ ok s' outs em, s.g.st = .regInit → OverLlc cfg s ⟨.fsmTimer, ok⟩ s' outs em → LlcKnows s') := by
  obtain ⟨k1, k2, k3⟩ := hk
  refine ⟨fun op ho => ?_, ?_⟩
  · have hn : ∀ a b, op ≠ .assignReq a b := fun a b e => by subst e; exact ho
    exact ⟨k1, hasTlli_step op hn k2, fun h => hasTlli_step op hn (k3 h)⟩
  · rintro ok ⟨g', c'⟩ outs em hst ⟨r, e1, e2, -, e4⟩
    dsimp only at *
    subst e2
    injection e1 with e1
    have main : ∀ (l : List GmmOut) (c : Ctx) (em : List Out) (t : Nat),
        (∀ o ∈ l, ∀ a b, llcOpOf o ≠ some (.assignReq a b)) → llcTake ok c l = some (c', em) →
        HasTlli c t → HasTlli c' t := by
      intro l
      induction l with
      | nil =>
        intro c em t _ e h
        injection e with e; injection e with e1 e2; subst e1; exact h
      | cons o l ih =>
        intro c em t hl e h
        cases ho : llcOpOf o with
        | none =>
          unfold llcTake at e
          rw [ho] at e
          exact ih c em t (fun x hx => hl x (List.mem_cons_of_mem _ hx)) e h
        | some op =>
          obtain ⟨-, em', e', -⟩ := take_cons ho e
          refine ih _ em' t (fun x hx => hl x (List.mem_cons_of_mem _ hx)) e' (hasTlli_step op ?_ h)
          rintro a b rfl
          exact hl o List.mem_cons_self a b ho
    have hno : (∀ o ∈ r.out, ∀ a b, llcOpOf o ≠ some (.assignReq a b)) ∧ r.g.tlli = s.g.tlli ∧
        r.g.oldTlli = s.g.oldTlli := by
      subst e1
      unfold fsmTimeout
      rw [hst]
      dsimp only
      split
      · simp only [dispatch, gmmFsm]
        refine ⟨?_, rfl, rfl⟩
        intro o ho a b
        rw [List.nil_append] at ho
        unfold attachFailed toDereg at ho
        rcases List.mem_append.1 ho with h | h
        · dsimp only at h
          split at h
          · rw [List.mem_singleton] at h; subst h; exact fun x => by cases x
          · cases h
        · have := submit_sub h
          rcases List.mem_append.1 this with h | h
          · split at h
            · rw [List.mem_singleton] at h; subst h; exact fun x => by cases x
            · cases h
          · split at h
            · rw [List.mem_singleton] at h; subst h; unfold estRejOut
              split <;> exact fun x => by cases x
            · cases h
      · refine ⟨?_, rfl, rfl⟩
        intro o ho a b
        unfold txAttReq at ho
        split at ho
        · rw [Option.toList_some, List.mem_singleton] at ho; subst ho; exact fun x => by cases x
        · cases ho
    obtain ⟨n1, n2, n3⟩ := hno
    exact ⟨by rw [n2]; exact k1, by rw [n2]; exact main _ _ _ _ n1 e4 k2,
      fun x => by rw [n3] at x ⊢; exact main _ _ _ _ n1 e4 (k3 x)⟩

/-! ## After a detach -/

/-- A mobile station that has been detached has no TLLI.  Attached again, it is not registered by ATTACH
ACCEPT, and ATTACH COMPLETE is not sent, as long as LLC knows neither its previous TLLI nor that of the new
P-TMSI. -/
theorem c162_again (cfg : GmmCfg) (s s' : LlcStack) (hst : s.g.st = .regInit) (ht : s.g.tlli = 0xffffffff)
    (result timer prio : UInt8) (ra : Octets) (new : Option Nat) (hra : ra.length = 6)
    (hq : ∀ q, new = some q → q < 0x100000000 ∧ ¬ HasTlli s.c (q % 0x40000000 + 0xc0000000))
    (hn : new = none → ¬ HasTlli s.c s.g.oldTlli ∨ s.g.oldTlli = 0xffffffff)
    (ok : GmmOut → Bool) (outs : List GmmOut) (em : List Out)
    (h : OverLlc cfg s ⟨.rx (acceptMsg result timer prio ra new), ok⟩ s' outs em) :
    s'.g.st = .regInit ∧ (∀ t b, GmmOut.llUnitdata t b ∉ outs) ∧ em = [] ∧ s'.c = s.c := by
  obtain ⟨r, e1, e2, e3, e4⟩ := h
  obtain ⟨g', c'⟩ := s'
  dsimp only at *
  subst e2 e3
  have fin : ∀ g2 : Gmme, g2.st = .regInit → attAccEnd cfg ok (g2, true) = .ok r →
      ((g2.oldTlli = 0xffffffff ∧ g2.tlli = 0xffffffff) ∨ ¬ HasTlli s.c (assignKey g2.oldTlli g2.tlli)) →
      r.g.st = .regInit ∧ (∀ t b, GmmOut.llUnitdata t b ∉ r.out) ∧ em = [] ∧ c' = s.c := by
    intro g2 hs e hu
    obtain ⟨a1, a2, a3⟩ := assign_unknown hu
    unfold attAccEnd at e
    rw [if_pos rfl] at e
    unfold submitThen at e
    dsimp only at e
    unfold submit at e
    have f1 : llcOpOf (assignOut g2) = some (.assignReq g2.oldTlli g2.tlli) := rfl
    by_cases o1 : ok (assignOut g2) = true
    · exfalso
      rw [if_pos o1] at e
      have hd : ∃ l, r.out = assignOut g2 :: l := by
        generalize submit ok [rrAssignOut g2, GmmOut.llUnitdata g2.tlli attachCompl] = x at e
        split at e
        · injection e with e; subst e
          unfold dispatch
          split
          · exact ⟨_, rfl⟩
          · exact ⟨_, rfl⟩
        · injection e with e; subst e; exact ⟨_, rfl⟩
      obtain ⟨l, hl⟩ := hd
      rw [hl] at e4
      obtain ⟨x, -⟩ := take_cons f1 e4
      rw [a1, o1] at x
      cases x
    · rw [if_neg o1] at e
      injection e with e
      subst e
      obtain ⟨-, em', t1, t2⟩ := take_cons f1 e4
      injection t1 with t1
      injection t1 with t1 t3
      subst t1 t3
      refine ⟨hs, ?_, by rw [t2, a3]; rfl, a2⟩
      intro t b hb
      rw [List.mem_singleton] at hb
      cases hb
  cases new with
  | none =>
    obtain ⟨g2, f1, f2, f3, f4⟩ := rx_accept_none (cfg := cfg) (ok := ok) (g := s.g) (result := result)
      (timer := timer) (prio := prio) hra
    rw [f1] at e1
    refine fin g2 (f4.trans hst) e1 ?_
    unfold assignKey
    rw [f2, f3, ht]
    rcases hn rfl with h | h
    · by_cases x : s.g.oldTlli = 0xffffffff
      · exact .inl ⟨x, rfl⟩
      · rw [if_pos x]; exact .inr h
    · exact .inl ⟨h, rfl⟩
  | some q =>
    obtain ⟨q1, q2⟩ := hq q rfl
    obtain ⟨g2, f1, f2, f3, -⟩ := rx_accept (cfg := cfg) (ok := ok) (g := s.g) (result := result)
      (timer := timer) (prio := prio) (q := q) hra q1
    rw [f1] at e1
    refine fin (updatePtmsi g2 q) (f3.trans hst) e1 (.inr ?_)
    have ht' : (updatePtmsi g2 q).tlli = q % 0x40000000 + 0xc0000000 := by
      show localTlli q = _
      unfold localTlli
      rfl
    have ho : (updatePtmsi g2 q).oldTlli = 0xffffffff := f2.trans ht
    unfold assignKey
    rw [ho, ht', if_neg (by simp)]
    exact q2

/-! ## A history -/

/-- What happens in a history. -/
inductive OverEv where
  | event (i : GmmIn)
  | frame (t : Nat) (pdu : Octets) (ok : GmmOut → Bool)

/-- One event, computed. -/
def overEvent (cfg : GmmCfg) (s : LlcStack) (i : GmmIn) : Option LlcStack :=
  match gmmStep cfg i.ok s.g i.ev with
  | .ok r => (llcTake i.ok s.c r.out).map fun x => ⟨r.g, x.1⟩
  | _ => none

/-- The message in what LLC hands out. -/
def firstInd : List Out → Option (Nat × Octets)
  | .unitdataInd u 1 b :: _ => some (u, b)
  | _ => none

/-- A history, computed. -/
def overRun (cfg : GmmCfg) (s : LlcStack) : List OverEv → Option LlcStack
  | [] => some s
  | .event i :: l =>
    match i.ev with
    | .rx _ => none
    | _ => (overEvent cfg s i).bind fun s' => overRun cfg s' l
  | .frame t pdu ok :: l =>
    match firstInd (s.c.step (.rxPdu t pdu)).out with
    | some (u, b) =>
      if s.g.tlli = u ∨ s.g.oldTlli = u then
        (overEvent cfg ⟨s.g, (s.c.step (.rxPdu t pdu)).ctx⟩ ⟨.rx b, ok⟩).bind fun s' => overRun cfg s' l
      else none
    | none => none

theorem overEvent_over {cfg : GmmCfg} {s s' : LlcStack} {i : GmmIn} (h : overEvent cfg s i = some s') :
    ∃ outs em, OverLlc cfg s i s' outs em := by
  unfold overEvent at h
  split at h
  · rename_i r hr
    obtain ⟨x, hx, rfl⟩ := Option.map_eq_some_iff.1 h
    exact ⟨r.out, x.2, r, hr, rfl, rfl, hx⟩
  · cases h

theorem firstInd_mem {l : List Out} {u : Nat} {b : Octets} (h : firstInd l = some (u, b)) :
    Out.unitdataInd u 1 b ∈ l := by
  unfold firstInd at h
  split at h
  · injection h with h
    injection h with h1 h2
    subst h1 h2
    exact List.mem_cons_self
  · cases h

theorem overRun_reach {cfg : GmmCfg} : ∀ (l : List OverEv) {s s' : LlcStack}, OverReach cfg s →
    overRun cfg s l = some s' → OverReach cfg s'
  | [], s, s', h, e => by injection e with e; subst e; exact h
  | .event i :: l, s, s', h, e => by
    unfold overRun at e
    split at e
    · cases e
    · rename_i hne
      obtain ⟨x, hx, hx'⟩ := Option.bind_eq_some_iff.1 e
      obtain ⟨outs, em, ho⟩ := overEvent_over hx
      exact overRun_reach l (.event h hne ho) hx'
  | .frame t pdu ok :: l, s, s', h, e => by
    unfold overRun at e
    split at e
    · rename_i u b hb
      split at e
      · rename_i hu
        obtain ⟨x, hx, hx'⟩ := Option.bind_eq_some_iff.1 e
        obtain ⟨outs, em, ho⟩ := overEvent_over hx
        exact overRun_reach l (.frame h (firstInd_mem hb) hu ho) hx'
      · cases e
    · cases e

/-- ATTACH ACCEPT of the example. -/
def overAccept : Octets := acceptMsg 1 0x2a 0x44 [0x32, 0xf4, 0x07, 0x00, 0x05, 0x00] (some 0xc1000001)

/-- Attach, ATTACH ACCEPT with P-TMSI c1000001, detach, DETACH ACCEPT, attach. -/
def overHistory : List OverEv :=
  [.event ⟨.attachReq prm0, yes⟩, .frame 0x80001234 (uiFrame true 1 0 overAccept) yes,
   .event ⟨.detachReq 1 false, yes⟩, .frame 0xc1000001 (uiFrame true 1 1 [0x08, 0x06, 0x00]) yes,
   .event ⟨.attachReq prm0, yes⟩]

/-- The mobile station and LLC when everything begins. -/
def over0 : LlcStack := ⟨gmmeAlloc true 0xc0001234 [2, 4, 1] 0, Ctx.init .ms⟩

/-- LLC refuses LLGMM-ASSIGN.req. -/
def noLlgmm : GmmOut → Bool
  | .llgmmAssign _ _ _ _ => false
  | _ => true

/-- A mobile station that has been detached cannot be attached again. -/
theorem c162_violated : ¬ C162Statement := by
  intro h
  have e : ((overRun defaultCfg over0 overHistory).map fun s => (s.g.st, s.g.tlli,
      decide (firstInd (s.c.step (.rxPdu 0xffffffff (uiFrame true 1 0 overAccept))).out = some (0xffffffff, overAccept)),
      (overEvent defaultCfg ⟨s.g, (s.c.step (.rxPdu 0xffffffff (uiFrame true 1 0 overAccept))).ctx⟩
        ⟨.rx overAccept, noLlgmm⟩).map fun s' => s'.g.st)) =
      some (.regInit, 0xffffffff, true, some .regInit) := by decide +kernel
  obtain ⟨s, hs, e⟩ := Option.map_eq_some_iff.1 e
  simp only [Prod.mk.injEq] at e
  obtain ⟨e1, e2, e3, e4⟩ := e
  obtain ⟨s', hs', e5⟩ := Option.map_eq_some_iff.1 e4
  obtain ⟨outs, em, ho⟩ := overEvent_over hs'
  have := h defaultCfg s (overRun_reach _ (.start true 0xc0001234 [2, 4, 1] 0) hs) e1 _ _ _ _ _ _ _ _ _ s' outs em
    (by decide) (fun q hq => by injection hq with hq; subst hq; decide) (firstInd_mem (of_decide_eq_true e3)) (.inl e2)
    (fun o ho => by cases o <;> first | rfl | cases ho) ho
  rw [e5] at this
  cases this

/-- Non-vacuity of `c162_partial` and `c162_first_attach`: the first attach of the example. -/
example : ((overRun defaultCfg over0 (overHistory.take 1)).map fun s => (s.g.st, s.g.tlli, s.g.oldTlli,
    (s.c.find s.g.tlli).isSome)) = some (.regInit, 0x80001234, 0xffffffff, true) ∧
    ((overRun defaultCfg over0 (overHistory.take 2)).map fun s => (s.g.st, s.g.tlli, s.g.oldTlli,
    (s.c.find s.g.tlli).isSome, (s.c.find s.g.oldTlli).isSome)) =
      some (.reg, 0xc1000001, 0x80001234, true, true) := by decide +kernel

/-- Non-vacuity of `c162_again`: the second attach of the example. -/
example : ((overRun defaultCfg over0 overHistory).map fun s => (s.g.st, s.g.tlli, s.g.oldTlli,
    (s.c.find s.g.oldTlli).isSome, (s.c.find 0xc1000001).isSome)) =
    some (.regInit, 0xffffffff, 0xc1000001, false, false) := by decide +kernel

end Verif.Props
