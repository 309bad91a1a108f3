import Verif.Props.LlcXidUse

/-!
# C181: every size in use was given by the table or by the peer
-/
namespace Verif.Props

open Verif.Llc Verif.Spec

/-- All entities of a context satisfy `Q`. -/
def CtxAll (Q : Nat → Params → Prop) (c : Ctx) : Prop := ∀ m ∈ c.llmes, ∀ s, Q s (m.lle s).params

theorem all_onLle {Q : Nat → Params → Prop} {c : Ctx} (h : CtxAll Q c) (i s : Nat) (f : Llme → Lle → LleRes)
    (hf : ∀ m ∈ c.llmes, Q s (f m (m.lle s)).lle.params) : CtxAll Q (c.onLle i s f).ctx := by
  unfold Ctx.onLle
  split
  · exact h
  split
  · exact h
  · rename_i m hm
    have hmem := List.mem_of_getElem? hm
    intro x hx s'
    rcases List.mem_or_eq_of_mem_set hx with hx | rfl
    · exact h x hx s'
    · simp only [Llme.setLle]
      split
      · rename_i e; subst e; exact hf m hmem
      · exact h m hmem s'

theorem all_alloc {Q : Nat → Params → Prop} (hq : ∀ s, Q s (table9 s)) {c : Ctx} (h : CtxAll Q c) (t : Nat) : CtxAll Q (c.alloc t) := by
  intro m hm s
  rcases List.mem_cons.1 hm with rfl | hm
  · show Q s (defaultParams s); rw [default_table9]; exact hq s
  · exact h m hm s

theorem all_step {Q : Nat → Params → Prop} (hq : ∀ s, Q s (table9 s)) {c : Ctx} (h : CtxAll Q c) (op : Op)
    (hrx : ∀ t d p t' l, op = .rxPdu t d → decode d = .ok p → Q p.sapi l.params →
      Q p.sapi (Lle.rx c.loc t' l d p).lle.params) : CtxAll Q (c.step op).ctx := by
  have known : ∀ (t sapi : Nat) (f : Llme → Lle → LleRes), (∀ m ∈ c.llmes,
      Q sapi (f m (m.lle sapi)).lle.params) → CtxAll Q (c.onKnown t sapi f).ctx := by
    intro t s f hf
    unfold Ctx.onKnown
    split
    · exact h
    · exact all_onLle h _ _ _ hf
  have setm : ∀ (i : Nat) (m' : Llme), (∀ s, Q s (m'.lle s).params) →
      CtxAll Q { c with llmes := c.llmes.set i m' } := by
    intro i m' hm' x hx s
    rcases List.mem_or_eq_of_mem_set hx with hx | rfl
    · exact h x hx s
    · exact hm' s
  have susp : ∀ t b, CtxAll Q (c.setSuspended t b).ctx := by
    intro t b
    unfold Ctx.setSuspended
    split
    · exact h
    split
    · exact h
    · rename_i m hm; exact setm _ _ (h m (List.mem_of_getElem? hm))
  cases op with
  | xidReq t s l3 => exact known _ _ _ (fun m hm => by rw [txXidReq_params]; exact h m hm s)
  | xidResp t s l3 => exact known _ _ _ (fun m hm => by rw [(txXidResp_same _ _ _ _).1]; exact h m hm s)
  | establishReq t s => exact known _ _ _ (fun m hm => h m hm s)
  | resetReq t iov =>
    refine known _ _ _ (fun m hm => ?_)
    unfold Lle.reset
    simp only
    split
    · rw [Lle.txXid, txFrame_lle]; exact h m hm 1
    · exact h m hm 1
    · exact h m hm 1
  | triggerReq t cell =>
    refine known _ _ _ (fun m hm => ?_)
    split
    · rw [Lle.txNull, txFrame_lle]; exact h m hm 1
    · rw [txUi_params]; exact h m hm 1
  | suspendReq t => exact susp t true
  | resumeReq t => exact susp t false
  | unitdataReq t s prio data =>
    have hact : ∀ c : Ctx, CtxAll Q c → ∀ loc, ∀ m ∈ c.llmes, Q s
        (if m.suspended ∧ s ≠ 1 then ({ lle := m.lle s } : LleRes) else (m.lle s).txUi loc m.tlli prio data).lle.params := by
      intro c h loc m hm
      split
      · exact h m hm s
      · rw [txUi_params]; exact h m hm s
    simp only [Ctx.step, Ctx.unitdataReq]
    split
    · exact all_onLle h _ _ _ (hact c h c.loc)
    · split
      · exact all_alloc hq h _
      · exact all_onLle (all_alloc hq h _) _ _ _ (hact _ (all_alloc hq h _) c.loc)
  | rxPdu t d =>
    simp only [Ctx.step, Ctx.rxPdu]
    split
    · exact h
    · exact h
    · rename_i p hp
      split
      · exact h
      · have hl : (c.lleForRx t p.sapi p.func).1.loc = c.loc := by
          unfold Ctx.lleForRx
          split
          · rfl
          · split <;> rfl
        have hc : CtxAll Q (c.lleForRx t p.sapi p.func).1 := by
          unfold Ctx.lleForRx
          split
          · exact h
          · split
            · exact all_alloc hq h _
            · exact h
        split
        · rename_i heq; rw [heq] at hc; exact hc
        · rename_i heq; rw [heq] at hc hl
          simp only at hl
          rw [hl]
          exact all_onLle hc _ _ _ (fun m hm => hrx t d p m.tlli _ rfl hp (hc m hm _))
  | assignReq o n =>
    simp only [Ctx.step, Ctx.assignReq]
    split
    · exact h
    split
    · exact h
    split
    · exact h
    rename_i m hm
    have hms := h m (List.mem_of_getElem? hm)
    split
    · intro x hx; exact h x (List.mem_of_mem_eraseIdx hx)
    · rename_i m' hm'
      refine setm _ _ (fun s => ?_)
      unfold Llme.assign at hm'
      split at hm'
      · split at hm'
        · injection hm' with hm'; subst hm'; exact hms s
        · injection hm' with hm'; subst hm'
          simp only
          split
          · exact hms s
          · exact hms s
      · split at hm'
        · injection hm' with hm'; subst hm'; exact hms s
        · cases hm'

theorem step_loc (c : Ctx) (op : Op) : (c.step op).ctx.loc = c.loc := by
  have on : ∀ (c : Ctx) i s f, (c.onLle i s f).ctx.loc = c.loc := by
    intro c i s f
    unfold Ctx.onLle
    split
    · rfl
    split <;> rfl
  have known : ∀ t s f, (c.onKnown t s f).ctx.loc = c.loc := by
    intro t s f
    unfold Ctx.onKnown
    split
    · rfl
    · exact on _ _ _ _
  have susp : ∀ t b, (c.setSuspended t b).ctx.loc = c.loc := by
    intro t b
    unfold Ctx.setSuspended
    split
    · rfl
    split <;> rfl
  cases op with
  | xidReq t s l3 => exact known _ _ _
  | xidResp t s l3 => exact known _ _ _
  | establishReq t s => exact known _ _ _
  | resetReq t iov => exact known _ _ _
  | triggerReq t cell => exact known _ _ _
  | suspendReq t => exact susp _ _
  | resumeReq t => exact susp _ _
  | unitdataReq t s prio data =>
    simp only [Ctx.step, Ctx.unitdataReq]
    split
    · exact on _ _ _ _
    · split
      · rfl
      · exact on _ _ _ _
  | rxPdu t d =>
    simp only [Ctx.step, Ctx.rxPdu]
    split
    · rfl
    · rfl
    · rename_i p hp
      split
      · rfl
      · have hl : (c.lleForRx t p.sapi p.func).1.loc = c.loc := by
          unfold Ctx.lleForRx
          split
          · rfl
          · split <;> rfl
        split
        · rename_i heq; rw [heq] at hl; exact hl
        · rename_i heq; rw [heq] at hl; rw [on]; exact hl
  | assignReq o n =>
    simp only [Ctx.step, Ctx.assignReq]
    split
    · rfl
    split
    · rfl
    split
    · rfl
    split <;> rfl

/-- A frame that gives the value `n` to parameter `t` on SAPI `s`: intact, not ciphered, an XID command to `loc`. -/
def GivesXid (loc : Location) (s t n : Nat) (d : Octets) : Prop :=
  ∃ p fs, decode d = .ok p ∧ p.sapi = s ∧ p.func = .XID ∧ fcsOk p d = true ∧ p.flags.encMode = false ∧
    receivedCrIsCmd loc p.flags.cmdRsp = true ∧ xidDecode 16 (p.payload d) = .ok fs ∧
    ∃ f ∈ fs, f.type = t ∧ f.val = n

/-- The value `n` of parameter `t` on SAPI `s` was given in the history: by Table 9 or by the peer. -/
def Given (loc : Location) (ops : List Op) (s t dflt n : Nat) : Prop :=
  n = dflt ∨ ∃ tlli d, Op.rxPdu tlli d ∈ ops ∧ GivesXid loc s t n d

/-- The parameters are those of Table 9, but for sizes the peer gave. -/
def ParamsGiven (loc : Location) (ops : List Op) (s : Nat) (p : Params) : Prop :=
  p = { table9 s with n201u := p.n201u, n201i := p.n201i } ∧
  Given loc ops s 5 (table9 s).n201u p.n201u ∧ Given loc ops s 6 (table9 s).n201i p.n201i

theorem fold_given {loc : Location} {ops : List Op} {s t : Nat} {d : Octets} (hop : Op.rxPdu t d ∈ ops) {p : Decoded}
    {all : List XidField} (h1 : decode d = .ok p) (h2 : p.sapi = s) (h3 : p.func = .XID) (h4 : fcsOk p d = true)
    (h5 : p.flags.encMode = false) (h6 : receivedCrIsCmd loc p.flags.cmdRsp = true)
    (h7 : xidDecode 16 (p.payload d) = .ok all) (hwf : ∀ f ∈ all, XidWellFormed f) :
    ∀ (fs : List XidField) (st : Params × Bool), fs ⊆ all → ParamsGiven loc ops s st.1 →
      ParamsGiven loc ops s (fs.foldl xidIndField st).1 := by
  intro fs
  induction fs with
  | nil => intro st _ h; exact h
  | cons f fs ih =>
    intro st hsub h
    refine ih _ (fun g hg => hsub (List.mem_cons_of_mem _ hg)) ?_
    have hmem := hsub (List.mem_cons_self ..)
    have hf := hwf f hmem
    obtain ⟨e, a, b⟩ := h
    unfold xidIndField
    split
    · rename_i ht
      rcases hf with hf | hf
      · omega
      have hv : f.val % 2 ^ 16 = f.val :=
        Nat.mod_eq_of_lt (by have := hf.1; rw [ht] at this; simp [XidLegal] at this; omega)
      split
      · refine ⟨?_, .inr ⟨t, d, hop, p, all, h1, h2, h3, h4, h5, h6, h7, f, hmem, ht, hv.symm⟩, b⟩
        rw [e]
      · exact ⟨e, a, b⟩
    · split
      · rename_i ht
        rcases hf with hf | hf
        · omega
        have hv : f.val % 2 ^ 16 = f.val :=
          Nat.mod_eq_of_lt (by have := hf.1; rw [ht] at this; simp [XidLegal] at this; omega)
        split
        · refine ⟨?_, a, .inr ⟨t, d, hop, p, all, h1, h2, h3, h4, h5, h6, h7, f, hmem, ht, hv.symm⟩⟩
          rw [e]
        · exact ⟨e, a, b⟩
      · exact ⟨e, a, b⟩

theorem rx_given {loc : Location} {ops : List Op} {t : Nat} {d : Octets} (hop : Op.rxPdu t d ∈ ops) {p : Decoded}
    (h1 : decode d = .ok p) (t' : Nat) (l : Lle) (h : ParamsGiven loc ops p.sapi l.params) :
    ParamsGiven loc ops p.sapi (l.rx loc t' d p).lle.params := by
  unfold Lle.rx
  split
  · exact h
  rename_i h5
  split
  · split
    · exact h
    · exact h
  rename_i h4
  split
  · rw [Lle.txDm, txFrame_lle]; exact h
  · rw [Lle.txDm, txFrame_lle]; exact h
  · rename_i h3
    simp only
    split
    · rename_i h6
      unfold Lle.processXidInd
      split
      · exact h
      · exact h
      · rename_i fs hfs
        have hwf := ((c08_xid_decode_valid 16 (p.payload d)).2 fs hfs).2
        have := fold_given hop h1 rfl h3 (by simpa using h4) (by simpa using h5) h6 hfs hwf fs (l.params, false)
          (fun _ h => h) h
        simp only
        split
        · exact this
        · simp only [(txXidResp_same loc t' _ []).1]; exact this
    · unfold Lle.processXidConf
      split <;> exact h
  · have := (acceptUi_same l p.seqTx).2.2
    split
    · rename_i heq; rw [heq] at this; simp only at this; rw [this]; exact h
    · rename_i heq; rw [heq] at this; simp only at this; rw [this]; exact h
  · exact h

/-- **C181** Whatever the users ask for and the peers send, at any time and on every logical link the parameters in use
are those of Table 9, but for the sizes N201-U and N201-I, and each of these is the one of the table or was given by the peer:
by an XID command for this SAPI that arrived intact. -/
theorem c181 (loc : Location) (ops : List Op) (m : Llme) (hm : m ∈ ((Ctx.init loc).run ops).1.llmes) (s : Nat) :
    ParamsGiven loc ops s (m.lle s).params := by
  have : ∀ (l : List Op) (c : Ctx), l ⊆ ops → c.loc = loc → CtxAll (ParamsGiven loc ops) c →
      CtxAll (ParamsGiven loc ops) (c.run l).1 := by
    intro l
    induction l with
    | nil => intro c _ _ h; exact h
    | cons op l ih =>
      intro c hsub hl h
      refine ih _ (fun x hx => hsub (List.mem_cons_of_mem _ hx)) (by rw [step_loc]; exact hl)
        (all_step (fun s => ⟨rfl, .inl rfl, .inl rfl⟩) h op ?_)
      rintro t d p t' l rfl hd hq
      rw [hl]
      exact rx_given (hsub (List.mem_cons_self ..)) hd t' l hq
  exact this ops _ (fun _ h => h) rfl (fun m hm => by simp [Ctx.init] at hm) m hm s

/-- Without XID commands of the peer, the sizes are those of the table, whatever else is done. -/
theorem c181_default (loc : Location) (ops : List Op) (h : ∀ t d p, Op.rxPdu t d ∈ ops → decode d = .ok p → p.func ≠ .XID)
    (m : Llme) (hm : m ∈ ((Ctx.init loc).run ops).1.llmes) (s : Nat) : (m.lle s).params = table9 s := by
  obtain ⟨e, a, b⟩ := c181 loc ops m hm s
  have no : ∀ t dflt n, Given loc ops s t dflt n → n = dflt := by
    rintro t dflt n (h1 | ⟨t', d, hop, p, fs, hd, _, hx, _⟩)
    · exact h1
    · exact absurd hx (h t' d p hop hd)
  rw [e, no _ _ _ a, no _ _ _ b]

/-- The table, after an LL-UNITDATA.req on a new logical link; and the value of the peer after its XID command. -/
example : (((Ctx.init .sgsn).run [.rxPdu 0xc0000001 gmmFrame]).1.llmes.map fun m => (m.lle 3).params) = [table9 3] := by
  decide +kernel

example : (((Ctx.init .sgsn).run [.rxPdu 0xc0000001 gmmFrame,
    .rxPdu 0xc0000001 [3, 251, 22, 0, 200, 50, 36, 39]]).1.llmes.map
      fun m => (m.lle 3).params.n201u) = [200] ∧ GivesXid .sgsn 3 5 200 [3, 251, 22, 0, 200, 50, 36, 39] := by
  refine ⟨by decide +kernel, ?_⟩
  obtain ⟨p, hd, h⟩ := xidFrame_rsp
  have hs : (match decode [3, 251, 22, 0, 200, 50, 36, 39] with
    | .ok p => some (p.sapi, receivedCrIsCmd .sgsn p.flags.cmdRsp)
    | _ => none) = some (3, true) := by decide +kernel
  rw [hd] at hs
  simp only [Option.some.injEq, Prod.mk.injEq] at hs
  exact ⟨p, _, hd, hs.1, h.func, h.fcs, h.clear, hs.2, xidFrame_decode h, _, List.mem_cons_self .., rfl, rfl⟩

end Verif.Props
