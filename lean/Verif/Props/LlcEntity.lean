import Verif.Llc.EntityLemmas
import Verif.Props.LlcPdu

/-!
# LLC unacknowledged transfer: C09 (numbering), C12 (oversize), C10 (overflow counter), C11 (duplicates)
-/
namespace Verif.Props

open Verif.Llc Verif.Spec

/-- Well-formed contexts (proof device): entity `s` of every LLME is on SAPI `s`, TLLIs differ. -/
def WfCtx (c : Ctx) : Prop :=
  (∀ m ∈ c.llmes, ∀ s, (m.lle s).sapi = s ∧ (m.lle s).vuSend < 512) ∧
  (c.llmes.map Llme.tlli).Nodup

/-- V(U) of the entity with current TLLI `t` and SAPI `s` (proof device). -/
def vuOf (c : Ctx) (t s : Nat) : Nat :=
  match c.llmes.find? (fun m => m.tlli == t) with
  | some m => (m.lle s).vuSend
  | none => 0

/-- What one operation may do to the numbering (proof device). -/
def NuStep (c : Ctx) (r : CtxRes) : Prop :=
  WfCtx r.ctx ∧ ∀ t s,
    (sentNus t s r.out = [] ∧ vuOf r.ctx t s = vuOf c t s) ∨
    (sentNus t s r.out = [vuOf c t s] ∧ vuOf r.ctx t s = (vuOf c t s + 1) % 512)

theorem find_set (t : Nat) (m' : Llme) : ∀ (l : List Llme) (i : Nat) (m : Llme), l[i]? = some m →
    m'.tlli = m.tlli → (l.map Llme.tlli).Nodup →
    (l.set i m').find? (fun m => m.tlli == t) =
      if m.tlli = t then some m' else l.find? (fun m => m.tlli == t) := by
  intro l
  induction l with
  | nil => intro i m h; simp at h
  | cons a l ih =>
    intro i m h ht hnd
    simp only [List.map_cons, List.nodup_cons] at hnd
    cases i with
    | zero =>
      simp only [List.getElem?_cons_zero, Option.some.injEq] at h
      subst h
      simp only [List.set_cons_zero, List.find?_cons, ht]
      by_cases hat : a.tlli = t
      · simp [hat]
      · rw [beq_eq_false_iff_ne.2 hat, if_neg hat]
    | succ i =>
      simp only [List.getElem?_cons_succ] at h
      have hm : m ∈ l := List.mem_of_getElem? h
      have hne : a.tlli ≠ m.tlli := fun e => hnd.1 (e ▸ List.mem_map_of_mem hm)
      simp only [List.set_cons_succ, List.find?_cons, ih i m h ht hnd.2]
      by_cases hat : a.tlli = t
      · have : m.tlli ≠ t := fun e => hne (hat.trans e.symm)
        simp only [beq_iff_eq.2 hat, if_neg this]
      · rw [beq_eq_false_iff_ne.2 hat]

theorem find_mem (t : Nat) : ∀ (l : List Llme) (m : Llme), m ∈ l → (l.map Llme.tlli).Nodup →
    m.tlli = t → l.find? (fun m => m.tlli == t) = some m := by
  intro l
  induction l with
  | nil => intro m h; simp at h
  | cons a l ih =>
    intro m h hnd ht
    simp only [List.map_cons, List.nodup_cons] at hnd
    rcases List.mem_cons.1 h with rfl | h
    · simp [ht]
    · have hne : a.tlli ≠ t := fun e => hnd.1 (by rw [e, ← ht]; exact List.mem_map_of_mem h)
      simp [hne, ih m h hnd.2 ht]

theorem map_set_tlli (l : List Llme) (i : Nat) (m m' : Llme) (h : l[i]? = some m)
    (ht : m'.tlli = m.tlli) : (l.set i m').map Llme.tlli = l.map Llme.tlli := by
  rw [List.map_set, ht]
  apply List.ext_getElem?
  intro j
  rw [List.getElem?_set]
  split
  · rename_i hij
    subst hij
    simp [h]
    exact (List.getElem?_eq_some_iff.1 h).1
  · rfl

theorem nuStep_refl {c : Ctx} (h : WfCtx c) {rc : Res Unit} : NuStep c { ctx := c, rc } :=
  ⟨h, fun _ _ => .inl ⟨rfl, rfl⟩⟩

theorem nuStep_set {c : Ctx} (h : WfCtx c) {i : Nat} {m m' : Llme} (hm : c.llmes[i]? = some m)
    (ht : m'.tlli = m.tlli) (hl : m'.lle = m.lle) {rc : Res Unit} :
    NuStep c { ctx := { c with llmes := c.llmes.set i m' }, rc } := by
  refine ⟨⟨?_, ?_⟩, fun t s => .inl ⟨rfl, ?_⟩⟩
  · intro x hx
    rcases List.mem_or_eq_of_mem_set hx with hx | rfl
    · exact h.1 x hx
    · rw [hl]; exact h.1 m (List.mem_of_getElem? hm)
  · rw [map_set_tlli _ _ _ _ hm ht]; exact h.2
  · unfold vuOf
    simp only
    rw [find_set t m' _ _ _ hm ht h.2]
    by_cases hmt : m.tlli = t
    · rw [if_pos hmt, find_mem t _ m (List.mem_of_getElem? hm) h.2 hmt]; simp only [hl]
    · rw [if_neg hmt]

theorem nuStep_onLle {c : Ctx} (h : WfCtx c) (i sapi : Nat) (f : Llme → Lle → LleRes)
    (hf : ∀ m ∈ c.llmes, sapi < 16 → UiStep m.tlli (m.lle sapi) (f m (m.lle sapi))) :
    NuStep c (c.onLle i sapi f) := by
  unfold Ctx.onLle
  split
  · exact nuStep_refl h
  rename_i hs
  split
  · exact nuStep_refl h
  rename_i m hm
  have hmem := List.mem_of_getElem? hm
  obtain ⟨g1, g2⟩ := hf m hmem (by omega)
  obtain ⟨w1, w2⟩ := h.1 m hmem sapi
  rw [w1] at g1
  have hset : ∀ s, ((m.setLle sapi (f m (m.lle sapi)).lle).lle s) =
      if s = sapi then (f m (m.lle sapi)).lle else m.lle s := fun s => rfl
  have ht : (m.setLle sapi (f m (m.lle sapi)).lle).tlli = m.tlli := rfl
  refine ⟨⟨?_, ?_⟩, ?_⟩
  · intro x hx s
    rcases List.mem_or_eq_of_mem_set hx with hx | rfl
    · exact h.1 x hx s
    · rw [hset]
      split
      · rename_i hss
        subst hss
        refine ⟨g1, ?_⟩
        rcases g2 with ⟨_, g2⟩ | ⟨_, _, g2⟩
        · rw [g2]; exact w2
        · rw [g2]; omega
      · exact h.1 m hmem s
  · exact (map_set_tlli _ _ _ _ hm ht) ▸ h.2
  · intro t s
    have hv : vuOf { c with llmes := c.llmes.set i (m.setLle sapi (f m (m.lle sapi)).lle) } t s =
        if m.tlli = t ∧ s = sapi then (f m (m.lle sapi)).lle.vuSend else vuOf c t s := by
      unfold vuOf
      simp only
      rw [find_set t _ _ _ _ hm ht h.2]
      by_cases hmt : m.tlli = t
      · rw [if_pos hmt, find_mem t _ m hmem h.2 hmt]
        simp only [hset, hmt, true_and]
        split <;> rfl
      · rw [if_neg hmt, if_neg (fun e => hmt e.1)]
    have hv0 : m.tlli = t → vuOf c t s = (m.lle s).vuSend := by
      intro hmt
      unfold vuOf
      rw [find_mem t _ m hmem h.2 hmt]
    rcases g2 with ⟨k1, k2⟩ | ⟨k1, k2, k3⟩
    · left
      refine ⟨k1 t s, ?_⟩
      rw [hv]
      split
      · rename_i e
        rw [k2, hv0 e.1, e.2]
      · rfl
    · by_cases e : m.tlli = t ∧ s = sapi
      · right
        obtain ⟨e1, rfl⟩ := e
        subst e1
        rw [w1] at k1
        refine ⟨?_, ?_⟩
        · rw [hv0 rfl]; exact k1
        · rw [hv, if_pos ⟨rfl, rfl⟩, k3, hv0 rfl]
      · left
        refine ⟨k2 t s ?_, by rw [hv, if_neg e]⟩
        rw [w1]
        intro e'
        injection e' with e1 e2
        exact e ⟨e1.symm, e2⟩

theorem wf_alloc {c : Ctx} (h : WfCtx c) {t : Nat} (hf : c.find t = none) :
    WfCtx (c.alloc t) ∧ ∀ t' s, vuOf (c.alloc t) t' s = vuOf c t' s := by
  have hno : ∀ m ∈ c.llmes, m.tlli ≠ t := by
    intro m hm e
    unfold Ctx.find at hf
    rw [List.findIdx?_eq_none_iff] at hf
    have := hf m hm
    simp [e] at this
  refine ⟨⟨?_, ?_⟩, ?_⟩
  · intro m hm s
    rcases List.mem_cons.1 hm with rfl | hm
    · exact ⟨rfl, Nat.zero_lt_succ _⟩
    · exact h.1 m hm s
  · simp only [Ctx.alloc, List.map_cons, List.nodup_cons]
    refine ⟨?_, h.2⟩
    intro hh
    obtain ⟨m, hm, e⟩ := List.mem_map.1 hh
    exact hno m hm e
  · intro t' s
    unfold vuOf Ctx.alloc
    simp only [List.find?_cons]
    by_cases e : t = t'
    · subst e
      have : (c.llmes.find? fun m => m.tlli == t) = none := by
        rw [List.find?_eq_none]; intro m hm; simpa using hno m hm
      simp [Llme.alloc, Lle.init, this]
    · rw [show ((Llme.alloc t).tlli == t') = false from beq_eq_false_iff_ne.2 e]

theorem nuStep_alloc {c : Ctx} (h : WfCtx c) {t : Nat} (hf : c.find t = none) {r : CtxRes}
    (hr : NuStep (c.alloc t) r) : NuStep c r := by
  obtain ⟨h1, h2⟩ := wf_alloc h hf
  refine ⟨hr.1, fun t s => ?_⟩
  have := hr.2 t s
  rw [h2] at this
  exact this

theorem nuStep_known {c : Ctx} (h : WfCtx c) (tlli sapi : Nat) (f : Llme → Lle → LleRes)
    (hf : ∀ m ∈ c.llmes, sapi < 16 → UiStep m.tlli (m.lle sapi) (f m (m.lle sapi))) :
    NuStep c (c.onKnown tlli sapi f) := by
  unfold Ctx.onKnown
  split
  · exact nuStep_refl h
  · exact nuStep_onLle h _ _ _ hf

/-- The operations that renumber an entity: LLGMM-ASSIGN and LLGMM-RESET. -/
def Renumbers : Op → Prop
  | .assignReq .. => True
  | .resetReq .. => True
  | _ => False

theorem nuStep_step {c : Ctx} (h : WfCtx c) (op : Op) (hop : ¬ Renumbers op) : NuStep c (c.step op) := by
  cases op with
  | assignReq => exact absurd trivial hop
  | resetReq => exact absurd trivial hop
  | establishReq t s =>
    exact nuStep_known h _ _ _ (fun m _ _ => uiStep_same rfl rfl (fun _ _ => rfl))
  | xidReq t s l3 => exact nuStep_known h _ _ _ (fun m _ _ => txXidReq_step _ _ _ _)
  | xidResp t s l3 => exact nuStep_known h _ _ _ (fun m _ _ => txXidResp_step _ _ _ _)
  | triggerReq t cell =>
    refine nuStep_known h _ _ _ (fun m hm _ => ?_)
    obtain ⟨w1, w2⟩ := h.1 m hm 1
    split
    · obtain ⟨h1, h2⟩ := txFrame_ui (loc := c.loc) (t := m.tlli) (s := (m.lle 1).sapi) (prio := 4)
        (l := m.lle 1) (p := { sapi := (m.lle 1).sapi, fmt := .U, func := .NULL }) rfl
      exact uiStep_same (by rw [Lle.txNull, h1]) (by rw [Lle.txNull, h1]) h2
    · exact txUi_step _ _ _ _ _ (by omega) w2
  | suspendReq t =>
    simp only [Ctx.step, Ctx.setSuspended]
    split
    · exact nuStep_refl h
    · split
      · exact nuStep_refl h
      · rename_i m hm; exact nuStep_set (m' := { m with suspended := true }) h hm rfl rfl
  | resumeReq t =>
    simp only [Ctx.step, Ctx.setSuspended]
    split
    · exact nuStep_refl h
    · split
      · exact nuStep_refl h
      · rename_i m hm; exact nuStep_set (m' := { m with suspended := false }) h hm rfl rfl
  | unitdataReq t s prio data =>
    have hact : ∀ c : Ctx, WfCtx c → ∀ loc, ∀ m ∈ c.llmes, s < 16 → UiStep m.tlli (m.lle s)
        (if m.suspended ∧ s ≠ 1 then { lle := m.lle s } else (m.lle s).txUi loc m.tlli prio data) := by
      intro c h loc m hm hs
      obtain ⟨w1, w2⟩ := h.1 m hm s
      split
      · exact uiStep_same rfl rfl (fun _ _ => rfl)
      · exact txUi_step _ _ _ _ _ (by omega) w2
    simp only [Ctx.step, Ctx.unitdataReq]
    split
    · exact nuStep_onLle h _ _ _ (hact c h c.loc)
    · rename_i hf
      refine nuStep_alloc h hf ?_
      have h' := (wf_alloc h hf).1
      split
      · exact nuStep_refl h'
      · exact nuStep_onLle h' _ _ _ (hact _ h' c.loc)
  | rxPdu t d =>
    simp only [Ctx.step, Ctx.rxPdu]
    split
    · exact nuStep_refl h
    · exact nuStep_refl h
    · split
      · exact nuStep_refl h
      · unfold Ctx.lleForRx
        cases hf : c.find t with
        | some i => exact nuStep_onLle h _ _ _ (fun m _ _ => rx_step _ _ _ _ _)
        | none =>
          simp only
          split
          · rename_i heq
            split at heq
            · injection heq with _ e; cases e
            · injection heq with e _; subst e; exact nuStep_refl h
          · rename_i heq
            split at heq
            · injection heq with e1 e2
              subst e1
              exact nuStep_alloc h hf (nuStep_onLle (wf_alloc h hf).1 _ _ _ (fun m _ _ => rx_step _ _ _ _ _))
            · injection heq with _ e; cases e

theorem run_nus (t s : Nat) : ∀ (ops : List Op) (c : Ctx), WfCtx c → (∀ op ∈ ops, ¬ Renumbers op) →
    ∃ k, sentNus t s (c.run ops).2 = (List.range k).map (fun i => (vuOf c t s + i) % 512) := by
  intro ops
  induction ops with
  | nil => intro c _ _; exact ⟨0, rfl⟩
  | cons op ops ih =>
    intro c h hops
    have hs := nuStep_step h op (hops op (by simp))
    obtain ⟨k, hk⟩ := ih _ hs.1 (fun o ho => hops o (by simp [ho]))
    simp only [Ctx.run, sentNus_append, hk]
    rcases hs.2 t s with ⟨h1, h2⟩ | ⟨h1, h2⟩
    · exact ⟨k, by rw [h1, h2]; rfl⟩
    · refine ⟨k + 1, ?_⟩
      rw [h1, h2, List.range_succ_eq_map]
      have hv : vuOf c t s < 512 := by
        unfold vuOf
        split
        · rename_i m hm; exact (h.1 m (List.mem_of_find?_eq_some hm) s).2
        · omega
      simp only [List.map_cons, Nat.add_zero, List.map_map, List.cons_append, List.nil_append,
        List.cons.injEq]
      refine ⟨(Nat.mod_eq_of_lt hv).symm, ?_⟩
      apply List.map_congr_left
      intro i _
      simp only [Function.comp_apply]
      omega

/-- **C09.** Whatever requests, peer frames, suspensions and XID exchanges happen on a freshly
initialised LLC layer (anything but LLGMM-ASSIGN and LLGMM-RESET, which restart the numbering), the UI
frames sent for any TLLI and SAPI carry N(U) = 0, 1, 2, ... modulo 512, without gap or repetition. -/
theorem c09_consecutive_nu (loc : Location) (ops : List Op) (hops : ∀ op ∈ ops, ¬ Renumbers op)
    (tlli sapi : Nat) :
    ∃ k, sentNus tlli sapi ((Ctx.init loc).run ops).2 = (List.range k).map (· % 512) := by
  have h : WfCtx (Ctx.init loc) := ⟨fun m hm => by simp [Ctx.init] at hm, by simp [Ctx.init]⟩
  obtain ⟨k, hk⟩ := run_nus tlli sapi ops _ h hops
  refine ⟨k, ?_⟩
  rw [hk]
  apply List.map_congr_left
  intro i _
  simp [vuOf, Ctx.init]

/-- Non-vacuity of C09: three accepted and one refused (401 octets on the GMM SAPI) request. -/
example : sentNus 0xc0000001 1 ((Ctx.init .ms).run
    [.unitdataReq 0xc0000001 1 1 [1, 2], .unitdataReq 0xc0000001 1 1 (List.replicate 401 7),
     .unitdataReq 0xc0000001 1 1 [3], .unitdataReq 0xc0000001 1 1 [4]]).2 = [0, 1, 2] := by
  decide +kernel

/-! ## C12 -/

/-- Entity `s` of every LLME is on SAPI `s` and its V(U) is below 512 (holds in every reachable
context, `reachable_sapiOk`). -/
def SapiOk (c : Ctx) : Prop := ∀ m ∈ c.llmes, ∀ s, (m.lle s).sapi = s ∧ (m.lle s).vuSend < 512

theorem sapiOk_onLle {c : Ctx} (h : SapiOk c) (i sapi : Nat) (f : Llme → Lle → LleRes)
    (hf : ∀ m ∈ c.llmes, sapi < 16 → (f m (m.lle sapi)).lle.sapi = sapi ∧
      (f m (m.lle sapi)).lle.vuSend < 512) : SapiOk (c.onLle i sapi f).ctx := by
  unfold Ctx.onLle
  split
  · exact h
  rename_i hs
  split
  · exact h
  rename_i m hm
  have hmem := List.mem_of_getElem? hm
  intro x hx s
  rcases List.mem_or_eq_of_mem_set hx with hx | rfl
  · exact h x hx s
  · simp only [Llme.setLle]
    split
    · rename_i e; subst e; exact hf m hmem (by omega)
    · exact h m hmem s

theorem uiStep_ok {t : Nat} {l : Lle} {r : LleRes} {s : Nat} (h : UiStep t l r)
    (h1 : l.sapi = s ∧ l.vuSend < 512) : r.lle.sapi = s ∧ r.lle.vuSend < 512 := by
  refine ⟨h.1.trans h1.1, ?_⟩
  rcases h.2 with ⟨_, h2⟩ | ⟨_, _, h2⟩ <;> rw [h2] <;> omega

theorem sapiOk_alloc {c : Ctx} (h : SapiOk c) (t : Nat) : SapiOk (c.alloc t) := by
  intro m hm s
  rcases List.mem_cons.1 hm with rfl | hm
  · exact ⟨rfl, Nat.zero_lt_succ _⟩
  · exact h m hm s

theorem sapiOk_set {c : Ctx} (h : SapiOk c) {i : Nat} {m' : Llme}
    (h' : ∀ s, (m'.lle s).sapi = s ∧ (m'.lle s).vuSend < 512) :
    SapiOk { c with llmes := c.llmes.set i m' } := by
  intro x hx s
  rcases List.mem_or_eq_of_mem_set hx with hx | rfl
  · exact h x hx s
  · exact h' s

theorem sapiOk_step {c : Ctx} (h : SapiOk c) (op : Op) : SapiOk (c.step op).ctx := by
  have known : ∀ (t sapi : Nat) (f : Llme → Lle → LleRes), (∀ m ∈ c.llmes, sapi < 16 →
      (f m (m.lle sapi)).lle.sapi = sapi ∧ (f m (m.lle sapi)).lle.vuSend < 512) →
      SapiOk (c.onKnown t sapi f).ctx := by
    intro t sapi f hf
    unfold Ctx.onKnown
    split
    · exact h
    · exact sapiOk_onLle h _ _ _ hf
  cases op with
  | assignReq o n =>
    simp only [Ctx.step, Ctx.assignReq]
    split
    · exact h
    split
    · exact h
    split
    · exact h
    rename_i m hm
    split
    · intro x hx; exact h x (List.mem_of_mem_eraseIdx hx)
    · rename_i m' hm'
      refine sapiOk_set h ?_
      · intro s
        have hms := h m (List.mem_of_getElem? hm) s
        unfold Llme.assign at hm'
        split at hm'
        · split at hm'
          · injection hm' with hm'; subst hm'; exact hms
          · injection hm' with hm'; subst hm'
            simp only
            split
            · exact ⟨hms.1, by simp⟩
            · exact hms
        · split at hm'
          · injection hm' with hm'; subst hm'; exact hms
          · cases hm'
  | resetReq t iov =>
    refine known _ _ _ (fun m hm _ => ?_)
    have := h m hm 1
    unfold Lle.reset
    simp only
    split
    · rw [(txXid_same _ _ _ _ _).1]; exact ⟨this.1, by simp⟩
    · exact this
    · exact this
  | establishReq t s => exact known _ _ _ (fun m hm _ => h m hm s)
  | xidReq t s l3 => exact known _ _ _ (fun m hm _ => uiStep_ok (txXidReq_step c.loc m.tlli _ _) (h m hm s))
  | xidResp t s l3 => exact known _ _ _ (fun m hm _ => uiStep_ok (txXidResp_step c.loc m.tlli _ _) (h m hm s))
  | triggerReq t cell =>
    refine known _ _ _ (fun m hm _ => ?_)
    have hh := h m hm 1
    split
    · rw [Lle.txNull, (txFrame_ui rfl).1]; exact hh
    · exact uiStep_ok (txUi_step _ m.tlli _ _ _ (by omega) hh.2) hh
  | suspendReq t =>
    simp only [Ctx.step, Ctx.setSuspended]
    split
    · exact h
    · split
      · exact h
      · rename_i m hm; exact sapiOk_set h (h m (List.mem_of_getElem? hm))
  | resumeReq t =>
    simp only [Ctx.step, Ctx.setSuspended]
    split
    · exact h
    · split
      · exact h
      · rename_i m hm; exact sapiOk_set h (h m (List.mem_of_getElem? hm))
  | unitdataReq t s prio data =>
    have hact : ∀ c : Ctx, SapiOk c → ∀ loc, ∀ m ∈ c.llmes, s < 16 →
        (if m.suspended ∧ s ≠ 1 then ({ lle := m.lle s } : LleRes) else (m.lle s).txUi loc m.tlli prio data).lle.sapi = s ∧
        (if m.suspended ∧ s ≠ 1 then ({ lle := m.lle s } : LleRes) else (m.lle s).txUi loc m.tlli prio data).lle.vuSend < 512 := by
      intro c h loc m hm hs
      have hh := h m hm s
      split
      · exact hh
      · exact uiStep_ok (txUi_step _ m.tlli _ _ _ (by omega) hh.2) hh
    simp only [Ctx.step, Ctx.unitdataReq]
    split
    · exact sapiOk_onLle h _ _ _ (hact c h c.loc)
    · split
      · exact sapiOk_alloc h _
      · exact sapiOk_onLle (sapiOk_alloc h _) _ _ _ (hact _ (sapiOk_alloc h _) c.loc)
  | rxPdu t d =>
    simp only [Ctx.step, Ctx.rxPdu]
    split
    · exact h
    · exact h
    · split
      · exact h
      · have hc : SapiOk (c.lleForRx t ‹Decoded›.sapi ‹Decoded›.func).1 := by
          unfold Ctx.lleForRx
          split
          · exact h
          · split
            · exact sapiOk_alloc h _
            · exact h
        split
        · rename_i heq; rw [heq] at hc; exact hc
        · rename_i heq; rw [heq] at hc
          exact sapiOk_onLle hc _ _ _ (fun m hm _ => uiStep_ok (rx_step _ m.tlli _ _ _) (hc m hm _))

/-- In every reachable context entity `s` is on SAPI `s` and numbers stay below 512. -/
theorem reachable_sapiOk (loc : Location) (ops : List Op) : SapiOk ((Ctx.init loc).run ops).1 := by
  have : ∀ (ops : List Op) (c : Ctx), SapiOk c → SapiOk (c.run ops).1 := by
    intro ops
    induction ops with
    | nil => intro c h; exact h
    | cons op ops ih => intro c h; exact ih _ (sapiOk_step h op)
  exact this ops _ (fun m hm => by simp [Ctx.init] at hm)

/-- The entity an LL-UNITDATA.request for `tlli`/`sapi` is served by: the one found for the TLLI, or a
new one with default parameters. -/
def Serves (c : Ctx) (tlli sapi : Nat) (m : Llme) : Prop :=
  (∃ i : Nat, c.find tlli = some i ∧ c.llmes[i]? = some m) ∨ (c.find tlli = none ∧ m = Llme.alloc tlli) ∧ sapi < 16

theorem unitdata_eq {c : Ctx} {t s prio : Nat} {data : Octets} {m : Llme} (hs : s < 16)
    (hm : Serves c t s m) : ∃ i, (i < c.llmes.length ∧ c.llmes[i]? = some m ∧ c.step (.unitdataReq t s prio data) =
        c.onLle i s (fun m l => if m.suspended ∧ s ≠ 1 then { lle := l } else l.txUi c.loc m.tlli prio data)) ∨
      (m = Llme.alloc t ∧ c.step (.unitdataReq t s prio data) = (c.alloc t).onLle 0 s
        (fun m l => if m.suspended ∧ s ≠ 1 then { lle := l } else l.txUi c.loc m.tlli prio data)) := by
  rcases hm with ⟨i, h1, h2⟩ | ⟨⟨h1, h2⟩, _⟩
  · refine ⟨i, .inl ⟨(List.getElem?_eq_some_iff.1 h2).1, h2, ?_⟩⟩
    simp [Ctx.step, Ctx.unitdataReq, h1]
  · refine ⟨0, .inr ⟨h2, ?_⟩⟩
    have : ¬ s ≥ 16 := by omega
    simp [Ctx.step, Ctx.unitdataReq, h1, this]

theorem unitdata_out {c : Ctx} {t s prio : Nat} {data : Octets} {m : Llme} (hs : s < 16)
    (hm : Serves c t s m) :
    let r : LleRes := if m.suspended ∧ s ≠ 1 then { lle := m.lle s }
      else (m.lle s).txUi c.loc m.tlli prio data
    (c.step (.unitdataReq t s prio data)).out = r.out ∧ (c.step (.unitdataReq t s prio data)).rc = r.rc := by
  have hs' : ¬ s ≥ 16 := by omega
  obtain ⟨i, ⟨_, h1, h2⟩ | ⟨h1, h2⟩⟩ := unitdata_eq (prio := prio) (data := data) hs hm
  · rw [h2]; simp [Ctx.onLle, hs', h1]
  · rw [h2]; subst h1; simp [Ctx.onLle, hs', Ctx.alloc]

/-- **C12.** After any history, for every payload: an LL-UNITDATA.request exceeding the N201-U in force
is refused with -EFBIG, emits nothing and changes no existing entity; otherwise exactly one lower-layer
primitive is emitted, and it carries exactly the payload in one UI frame.  (A suspended entity sends
nothing on SAPIs other than GMM's, see `c12_suspended`.) -/
theorem c12_oversize_or_once (loc : Location) (ops : List Op) (tlli sapi prio : Nat) (data : Octets)
    (m : Llme) (hs : sapi < 16) (hm : Serves ((Ctx.init loc).run ops).1 tlli sapi m)
    (hsus : m.suspended = false ∨ sapi = 1) :
    let c := ((Ctx.init loc).run ops).1
    let r := c.step (.unitdataReq tlli sapi prio data)
    (data.length > (m.lle sapi).params.n201u →
      r.rc = .err .efbig ∧ r.out = [] ∧
      (r.ctx.llmes = c.llmes ∨ r.ctx.llmes = Llme.alloc tlli :: c.llmes)) ∧
    (data.length ≤ (m.lle sapi).params.n201u →
      r.rc = .ok () ∧
      ∃ nu, nu < 512 ∧ r.out = [.down (c.loc == .sgsn) m.tlli sapi prio
        (uiFrame (c.loc == .sgsn) sapi nu data)]) := by
  have hreach := reachable_sapiOk loc ops
  generalize ((Ctx.init loc).run ops).1 = c at hm hreach
  intro c' r
  change (_ → (c.step _).rc = _ ∧ (c.step _).out = _ ∧
    ((c.step _).ctx.llmes = c.llmes ∨ (c.step _).ctx.llmes = _ :: c.llmes)) ∧
    (_ → (c.step _).rc = _ ∧ ∃ nu, nu < 512 ∧ (c.step _).out = _)
  obtain ⟨h1, h2⟩ := unitdata_out (prio := prio) (data := data) hs hm
  have hok : (m.lle sapi).sapi = sapi ∧ (m.lle sapi).vuSend < 512 := by
    rcases hm with ⟨i, _, h⟩ | ⟨⟨_, rfl⟩, _⟩
    · exact hreach m (List.mem_of_getElem? h) sapi
    · exact ⟨rfl, Nat.zero_lt_succ _⟩
  have hns : ¬ (m.suspended ∧ sapi ≠ 1) := by
    rcases hsus with h | h
    · simp [h]
    · simp [h]
  rw [if_neg hns] at h1 h2
  have hs' : ¬ sapi ≥ 16 := by omega
  refine ⟨fun hl => ?_, fun hl => ?_⟩
  · have hr : (m.lle sapi).txUi c.loc m.tlli prio data = { lle := m.lle sapi, rc := .err .efbig } := by
      unfold Lle.txUi; rw [if_pos hl]
    have hset : m.setLle sapi (m.lle sapi) = m := by
      cases m
      simp only [Llme.setLle, Llme.mk.injEq, true_and]
      funext s
      split
      · rename_i e; rw [e]
      · rfl
    refine ⟨by rw [h2, hr], by rw [h1, hr], ?_⟩
    obtain ⟨i, ⟨hi, e1, e2⟩ | ⟨e1, e2⟩⟩ := unitdata_eq (prio := prio) (data := data) hs hm
    · left
      rw [e2]
      simp only [Ctx.onLle, if_neg hs', e1, if_neg hns, hr, hset]
      apply List.ext_getElem?
      intro j
      rw [List.getElem?_set]
      split
      · rename_i e; subst e; first | exact e1.symm | (rw [if_pos hi]; exact e1.symm)
      · rfl
    · right
      rw [e2]
      subst e1
      simp only [Ctx.onLle, if_neg hs', Ctx.alloc, List.getElem?_cons_zero, if_neg hns, hr, hset,
        List.set_cons_zero]
  · have hr : ((m.lle sapi).txUi c.loc m.tlli prio data).rc = .ok () ∧
        ((m.lle sapi).txUi c.loc m.tlli prio data).out = [.down (c.loc == .sgsn) m.tlli sapi prio
          (uiFrame (c.loc == .sgsn) sapi (m.lle sapi).vuSend data)] := by
      unfold Lle.txUi
      rw [if_neg (by omega), encode_ui _ _ _ _ (by omega) hok.2, hok.1]
      refine ⟨rfl, ?_⟩
      have : encodeCr c.loc false = (c.loc == .sgsn) := by cases c.loc <;> rfl
      rw [this]
    exact ⟨h2.trans hr.1, _, hok.2, h1.trans hr.2⟩

/-- While suspended, requests on the user-data SAPIs are swallowed: nothing is sent. -/
theorem c12_suspended (c : Ctx) (tlli sapi prio : Nat) (data : Octets) (m : Llme) (hs : sapi < 16)
    (hm : Serves c tlli sapi m) (hsus : m.suspended = true) (h1 : sapi ≠ 1) :
    (c.step (.unitdataReq tlli sapi prio data)).out = [] := by
  have := (unitdata_out (prio := prio) (data := data) hs hm).1
  rw [if_pos ⟨hsus, h1⟩] at this
  exact this

/-- Non-vacuity of C12. -/
example : Serves ((Ctx.init .ms).run []).1 0xc0000001 3 (Llme.alloc 0xc0000001) :=
  .inr ⟨⟨rfl, rfl⟩, by decide⟩

example : ((Ctx.init .ms).step (.unitdataReq 0xc0000001 3 2 (List.replicate 501 0))).rc = .err .efbig ∧
    ((Ctx.init .ms).step (.unitdataReq 0xc0000001 3 2 (List.replicate 500 0))).out.length = 1 := by
  decide +kernel

/-! ## In-order delivery (C57) and the overflow counters (C10) -/

theorem uiFrame_rx {cr : Bool} {sapi nu : Nat} {data : Octets} (hs : SapiUsable sapi) (hn : nu < 512)
    (hlen : data.length + 3 < 2 ^ 16) : ∃ d, decode (uiFrame cr sapi nu data) = .ok d ∧
      fcsOk d (uiFrame cr sapi nu data) = true ∧ d.func = .UI ∧ d.sapi = sapi ∧ d.seqTx = nu ∧
      d.flags.encMode = false ∧ d.payload (uiFrame cr sapi nu data) = data := by
  obtain ⟨w, d, h1, h2, h3, _, h5, h6, h7, h8, h9⟩ := c03_ui_roundtrip
    { sapi, fmt := .UI, func := .SABM, flags := { protMode := true, cmdRsp := cr }, seqTx := nu, data }
    rfl hs hn rfl hlen
  rw [encode_ui _ _ _ _ ((sapiUsable_iff _).1 hs).1 hn] at h1
  injection h1 with h1
  subst h1
  exact ⟨d, h2, h3, h5, h6, h7, by rw [h8], h9⟩

/-- The frames among the primitives emitted. -/
def framesOf (out : List Out) : List Octets :=
  out.filterMap fun o => match o with | .down _ _ _ _ pdu => some pdu | _ => none

/-- The SAPIs whose user gets LL-UNITDATA.indications from this library: GMM and SNDCP. -/
def UserSapi (s : Nat) : Prop := s = 1 ∨ s = 3 ∨ s = 5 ∨ s = 9 ∨ s = 11

theorem find_setLle (c : Ctx) (i s : Nat) (m : Llme) (l : Lle) (hm : c.llmes[i]? = some m) (t : Nat) :
    Ctx.find { c with llmes := c.llmes.set i (m.setLle s l) } t = c.find t := by
  obtain ⟨hi, hm'⟩ := List.getElem?_eq_some_iff.1 hm
  unfold Ctx.find
  simp only
  have hmap : ∀ l : List Llme, l.findIdx? (fun m => m.tlli == t || m.oldTlli == t) =
      (l.map (fun m => (m.tlli, m.oldTlli))).findIdx? (fun p => p.1 == t || p.2 == t) := by
    intro l; rw [List.findIdx?_map]; rfl
  rw [hmap, hmap c.llmes, List.map_set]
  congr 1
  apply List.ext_getElem?
  intro j
  rw [List.getElem?_set]
  split
  · rename_i e; subst e
    simp [hi, hm', Llme.setLle]
  · rfl

theorem accept_inorder (l : Lle) (nu : Nat) (hn : nu < 512) (h : l.vuRecv = nu) :
    (l.acceptUi nu).2 = true ∧ (l.acceptUi nu).1.vuRecv = (nu + 1) % 512 := by
  have : isRetransmit nu l.vuRecv = false := by
    unfold isRetransmit
    rw [h, Nat.mod_eq_of_lt hn, show nu + 512 - nu = 512 by omega]; rfl
  simp [Lle.acceptUi, this]

/-- **C57.** In-order delivery: if the receiver's V(UR) equals the sender's V(U) for a TLLI and SAPI
(as after assignment), any number of LL-UNITDATA.requests of non-empty payloads within N201-U, whose
frames reach the peer in order, appear there as LL-UNITDATA.indications with exactly the same payloads
in the same order. -/
theorem c57_inorder_delivery (s prio : Nat) (hu : UserSapi s) (t : Nat) (ht : tlliTypeOk t = true) :
    ∀ (datas : List Octets) (cs cr : Ctx) (i j : Nat) (ms mr : Llme),
    cs.find t = some i → cs.llmes[i]? = some ms → cr.find t = some j → cr.llmes[j]? = some mr →
    (ms.lle s).sapi = s → ms.suspended = false →
    (ms.lle s).vuSend < 512 → (mr.lle s).vuRecv = (ms.lle s).vuSend →
    (ms.lle s).params.n201u ≤ 1520 →
    (∀ d ∈ datas, 0 < d.length ∧ d.length ≤ (ms.lle s).params.n201u) →
    (cr.run ((framesOf (cs.run (datas.map (Op.unitdataReq t s prio))).2).map (Op.rxPdu t))).2 =
      datas.map (Out.unitdataInd mr.tlli s) := by
  have hs16 : s < 16 := by rcases hu with h | h | h | h | h <;> omega
  have hus : SapiUsable s := by rcases hu with h | h | h | h | h <;> subst h <;> decide
  have hns : ¬ s ≥ 16 := by omega
  intro datas
  induction datas with
  | nil => intros; rfl
  | cons d ds ih =>
    intro cs cr i j ms mr h1 h2 h3 h4 h5 h6 h7 h8 h9 h10
    obtain ⟨d0, d1⟩ := h10 d (by simp)
    have hi := (List.getElem?_eq_some_iff.1 h2).1
    have hj := (List.getElem?_eq_some_iff.1 h4).1
    obtain ⟨ls, hls⟩ : ∃ l, l = (ms.lle s).txUi cs.loc ms.tlli prio d := ⟨_, rfl⟩
    have htx : ls.out = [.down (cs.loc == .sgsn) ms.tlli s prio
        (uiFrame (encodeCr cs.loc false) s (ms.lle s).vuSend d)] ∧
        ls.lle.vuSend = ((ms.lle s).vuSend + 1) % 512 ∧ ls.lle.params = (ms.lle s).params ∧
        ls.lle.sapi = s := by
      rw [hls]
      unfold Lle.txUi
      rw [if_neg (by omega), encode_ui _ _ _ _ (by omega) h7, h5]
      exact ⟨rfl, rfl, rfl, rfl⟩
    have hstep : cs.step (.unitdataReq t s prio d) =
        { ctx := { cs with llmes := cs.llmes.set i (ms.setLle s ls.lle) }, out := ls.out, rc := ls.rc } := by
      simp [Ctx.step, Ctx.unitdataReq, h1, Ctx.onLle, hns, h2, h6, hls]
    obtain ⟨p, q1, q2, q3, q4, q5, q6, q7⟩ := uiFrame_rx (cr := encodeCr cs.loc false) (data := d) hus h7 (by omega)
    obtain ⟨a1, a2⟩ := accept_inorder (mr.lle s) (ms.lle s).vuSend h7 h8
    obtain ⟨lr, hlr⟩ : ∃ l, l = ((mr.lle s).acceptUi (ms.lle s).vuSend).1 := ⟨_, rfl⟩
    rw [← hlr] at a2
    have hacc : (mr.lle s).acceptUi p.seqTx = (lr, true) := by
      rw [q5, hlr]; exact Prod.ext rfl a1
    have hdel : deliverUi mr.tlli s d = ([.unitdataInd mr.tlli s d], .ok ()) := by
      unfold deliverUi
      rw [if_neg (by omega)]; exact if_pos hu
    have hrx : cr.step (.rxPdu t (uiFrame (encodeCr cs.loc false) s (ms.lle s).vuSend d)) =
        { ctx := { cr with llmes := cr.llmes.set j (mr.setLle s lr) }
          out := [.unitdataInd mr.tlli s d] } := by
      simp only [Ctx.step, Ctx.rxPdu, q1, ht, Bool.not_true, Bool.false_eq_true, if_false,
        Ctx.lleForRx, h3, q4, Ctx.onLle, if_neg hns, h4, Lle.rx, q6, q2, q3, hacc, q7, hdel]
    simp only [List.map_cons, Ctx.run, hstep, htx.1, framesOf, List.cons_append, List.nil_append,
      List.filterMap_cons, hrx]
    congr 1
    have := ih { cs with llmes := cs.llmes.set i (ms.setLle s ls.lle) }
      { cr with llmes := cr.llmes.set j (mr.setLle s lr) } i j (ms.setLle s ls.lle) (mr.setLle s lr)
      (by rw [find_setLle _ _ _ _ _ h2]; exact h1) (by simp [hi])
      (by rw [find_setLle _ _ _ _ _ h4]; exact h3) (by simp [hj])
      (by simp [Llme.setLle, htx.2.2.2]) h6
      (by simp only [Llme.setLle, if_true, htx.2.1]; omega)
      (by simp only [Llme.setLle, if_true, htx.2.1, a2])
      (by simp only [Llme.setLle, if_true, htx.2.2.1]; exact h9)
      (fun x hx => by
        simp only [Llme.setLle, if_true, htx.2.2.1]
        exact h10 x (by simp [hx]))
    exact this

/-- Non-vacuity of C57: an MS sends two GMM messages to an SGSN, starting from fresh contexts in which
the TLLI is known. -/
example : (((Ctx.init .sgsn).alloc 0xc0000001).run
    ((framesOf (((Ctx.init .ms).alloc 0xc0000001).run
      ([[8, 1], [8, 2, 3]].map (Op.unitdataReq 0xc0000001 1 1))).2).map (Op.rxPdu 0xc0000001))).2 =
    [.unitdataInd 0xc0000001 1 [8, 1], .unitdataInd 0xc0000001 1 [8, 2, 3]] := by decide +kernel

/-- The sender's overflow counter when frame number `k` of a stream is sent (0-based). -/
def ocAtSend (loc : Location) (tlli prio sapi : Nat) (datas : List Octets) (k : Nat) : Nat :=
  ((datas.take k).foldl (fun l d => (l.txUi loc tlli prio d).lle) (Lle.init sapi)).ocSend

/-- The receiver's overflow counter when frame number `k` of an in-order stream arrives. -/
def ocAtRecv (sapi k : Nat) : Nat :=
  ((List.range k).foldl (fun l nu => (l.acceptUi (nu % 512)).1) (Lle.init sapi)).ocRecv

theorem send_state (loc : Location) (tlli prio sapi : Nat) (hs : sapi < 16) : ∀ (datas : List Octets),
    (∀ d ∈ datas, d.length ≤ (defaultParams sapi).n201u) →
    let l := datas.foldl (fun l d => (l.txUi loc tlli prio d).lle) (Lle.init sapi)
    l.sapi = sapi ∧ l.params = defaultParams sapi ∧ l.vuSend = datas.length % 512 ∧
      l.ocSend = (512 * ((datas.length + 1) / 512)) % 2 ^ 32 := by
  intro datas
  induction datas using List.reverseRecOn with
  | nil => intro _; exact ⟨rfl, rfl, rfl, rfl⟩
  | append_singleton ds d ih =>
    intro h
    obtain ⟨i1, i2, i3, i4⟩ := ih (fun x hx => h x (by simp [hx]))
    have hd := h d (by simp)
    simp only [List.foldl_append, List.foldl_cons, List.foldl_nil]
    generalize ds.foldl (fun l d => (l.txUi loc tlli prio d).lle) (Lle.init sapi) = l at i1 i2 i3 i4
    unfold Lle.txUi
    rw [if_neg (by rw [i2]; omega), encode_ui _ _ _ _ (by omega) (by omega)]
    refine ⟨i1, i2, ?_, ?_⟩
    · simp only [List.length_append, List.length_cons, List.length_nil]; omega
    · simp only [List.length_append, List.length_cons, List.length_nil]
      rw [i3, i4]
      split <;> omega

theorem recv_state (sapi : Nat) : ∀ k,
    let l := (List.range k).foldl (fun l nu => (l.acceptUi (nu % 512)).1) (Lle.init sapi)
    l.vuRecv = k % 512 ∧ l.ocRecv = (512 * (k / 512)) % 2 ^ 32 := by
  intro k
  induction k with
  | zero => exact ⟨rfl, rfl⟩
  | succ k ih =>
    obtain ⟨i1, i2⟩ := ih
    simp only [List.range_succ, List.foldl_append, List.foldl_cons, List.foldl_nil]
    generalize (List.range k).foldl (fun l nu => (l.acceptUi (nu % 512)).1) (Lle.init sapi) = l at i1 i2
    have : isRetransmit (k % 512) l.vuRecv = false := by
      unfold isRetransmit
      rw [i1, show k % 512 + 512 - k % 512 % 512 = 512 by omega]; rfl
    simp only [Lle.acceptUi, this, Bool.false_eq_true, if_false]
    refine ⟨by omega, ?_⟩
    rw [i2]
    split <;> omega

/-- **C10**, full statement: the overflow counters of both sides agree for every frame. -/
def OcAgree : Prop := ∀ (loc : Location) (tlli prio sapi : Nat) (datas : List Octets) (k : Nat), sapi < 16 →
  (∀ d ∈ datas, d.length ≤ (defaultParams sapi).n201u) → k < datas.length →
  ocAtSend loc tlli prio sapi datas k = ocAtRecv sapi k

/-- **C10** holds exactly for the frames whose number is not 511 modulo 512: the sender increments its
counter one frame too early. -/
theorem c10_oc_agree_partial (loc : Location) (tlli prio sapi : Nat) (datas : List Octets) (k : Nat)
    (hs : sapi < 16) (hd : ∀ d ∈ datas, d.length ≤ (defaultParams sapi).n201u) (hk : k < datas.length) :
    ocAtSend loc tlli prio sapi datas k = ocAtRecv sapi k ↔ k % 512 ≠ 511 := by
  unfold ocAtSend ocAtRecv
  have h1 := (send_state loc tlli prio sapi hs (datas.take k)
    (fun x hx => hd x (List.mem_of_mem_take hx))).2.2.2
  have h2 := (recv_state sapi k).2
  rw [List.length_take_of_le (by omega)] at h1
  rw [h1, h2]
  omega

theorem c10_oc_agree_violated : ¬ OcAgree := by
  intro h
  have h1 := h .ms 0 1 3 (List.replicate 512 []) 511 (by omega)
    (fun d hd => by rw [List.eq_of_mem_replicate hd]; exact Nat.zero_le _) (by rw [List.length_replicate]; omega)
  exact (c10_oc_agree_partial .ms 0 1 3 (List.replicate 512 []) 511 (by omega)
    (fun d hd => by rw [List.eq_of_mem_replicate hd]; exact Nat.zero_le _) (by rw [List.length_replicate]; omega)).1 h1 rfl

/-! ## C11 -/

/-- Receiver state and the numbers delivered so far after receiving UI frames with the given N(U). -/
def uiHistory (sapi : Nat) (nus : List Nat) : Lle × List Nat :=
  nus.foldl (fun s nu => let r := s.1.acceptUi nu; (r.1, if r.2 then s.2 ++ [nu] else s.2)) (Lle.init sapi, [])

/-- **C11**, full statement: a number already delivered and among the 32 preceding V(UR) is not delivered
again. -/
def NoDuplicates : Prop := ∀ (sapi : Nat) (nus : List Nat) (nu : Nat), (∀ n ∈ nus, n < 512) → nu < 512 →
  nu ∈ (uiHistory sapi nus).2 →
  (∃ d, 1 ≤ d ∧ d ≤ 32 ∧ (nu + d) % 512 = (uiHistory sapi nus).1.vuRecv) →
  ((uiHistory sapi nus).1.acceptUi nu).2 = false

/-- False of the code: the first copy of a frame is delivered again. -/
theorem c11_no_duplicates_violated : ¬ NoDuplicates := by
  intro h
  exact absurd (h 1 [0, 1] 1 (by decide) (by decide) (by decide) ⟨1, by decide⟩) (by decide)

/-- What does hold of C11: once a number has been taken as a retransmission, the next two copies of it
are discarded (and only the third is delivered again), whatever the history before. -/
theorem c11_repeated_duplicates_partial (l : Lle) (nu : Nat)
    (hr : isRetransmit nu l.vuRecv = true) (hl : nu ≠ l.vuRecvLast) :
    let l1 := (l.acceptUi nu).1
    let l2 := (l1.acceptUi nu).1
    let l3 := (l2.acceptUi nu).1
    (l1.acceptUi nu).2 = false ∧ (l2.acceptUi nu).2 = false ∧ (l3.acceptUi nu).2 = true := by
  have e : isRetransmit nu ((nu + 1) % 512) = true := by
    unfold isRetransmit
    have : ((nu + 1) % 512 + 512 - nu % 512) % 512 = 1 := by omega
    rw [this]; rfl
  simp [Lle.acceptUi, hr, hl, e]

/-- Frames that are not among the 31 numbers preceding V(UR) are always delivered. -/
theorem c11_new_accepted (l : Lle) (nu : Nat) (hn : nu < 512) (hv : l.vuRecv < 512)
    (h : ∀ d, 1 ≤ d → d ≤ 31 → (nu + d) % 512 ≠ l.vuRecv) : (l.acceptUi nu).2 = true := by
  have : isRetransmit nu l.vuRecv = false := by
    unfold isRetransmit
    rw [Nat.mod_eq_of_lt hn]
    simp only [Bool.and_eq_false_iff, decide_eq_false_iff_not]
    by_cases hh : (l.vuRecv + 512 - nu) % 512 = 0
    · left; omega
    · right
      intro hlt
      exact h ((l.vuRecv + 512 - nu) % 512) (by omega) (by omega) (by omega)
  simp [Lle.acceptUi, this]

example : isRetransmit 1 (Lle.init 1).vuRecv = false ∧ isRetransmit 511 (Lle.init 1).vuRecv = true ∧
    511 ≠ (Lle.init 1).vuRecvLast := by decide

end Verif.Props
