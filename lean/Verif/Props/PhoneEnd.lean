import Verif.Props.Phone
import Verif.Props.SmData
/-!
# C167: a PDP context that has ended no longer carries packets
-/
namespace Verif.Props
open Verif Verif.Gmm Verif.Sm Verif.Gsm

/-! ## Specification -/

/-- **C167**, full statement.  In every history, SNDCP takes packets only for an NSAPI with a PDP context that has not
ended. -/
def C167Statement : Prop :=
  ∀ cfg (who : Nat → Ident) ok l s tr, (∀ e ∈ l, PhEv.Outside e) → phRun cfg who ok ph0 l = .ok (s, tr) →
    ∀ t sapi n, Carries s t sapi n → ∃ id x, s.up.sm.slot id n = some x ∧ x.st ≠ .inactive

/-- A PDP context is activated, and the mobile station is switched off. -/
def offAgain : List PhEv :=
  phActivation (sgReq 0 5 0xc0000001) [] 1 0x4a 4 [0x62, 0xf2, 0x20, 0, 1, 0] 0xc0000005 3 4 [0, 0, 0] ++
  [.sg (.gmm (.detachReq 0xc0000005 1 true)), .sg (.timeout 0 5 [])]

/-- **C167 is violated**: SM drops the PDP contexts of a mobile station that is released without telling SNDCP. -/
theorem c167_violated : ¬ C167Statement := by
  intro h
  have hr := ph_ran (cfg := defaultCfg) (l := offAgain) (by decide +kernel)
  have hinv : SmInv (phState (phRun defaultCfg sgWho yes ph0 offAgain)).up.sm := by
    refine (phRun_acc offAgain ph0 _ _ ?_ ?_ smInit_inv hr).1
    · intro e he
      simp only [offAgain, phActivation, List.cons_append, List.nil_append, List.mem_cons, List.not_mem_nil, or_false] at he
      rcases he with rfl | rfl | rfl | rfl | rfl <;> trivial
    · intro t b he
      simp only [offAgain, phActivation, List.cons_append, List.nil_append, List.mem_cons, List.not_mem_nil, or_false,
        PhEv.sg.injEq, reduceCtorEq, SgEv.gmm.injEq, LayerEv.rx.injEq, false_or] at he
      rcases he with ⟨-, rfl⟩ | ⟨-, rfl⟩ <;> rintro ⟨a, l, h⟩ <;> injection h with _ h <;> injection h with h _ <;>
        exact absurd h (by decide)
  obtain ⟨id, x, hx, -⟩ := h defaultCfg sgWho yes offAgain _ _ (by
      intro e he
      simp only [offAgain, phActivation, List.cons_append, List.nil_append, List.mem_cons, List.not_mem_nil, or_false] at he
      rcases he with rfl | rfl | rfl | rfl | rfl <;> trivial) hr (localTlli 0xc0000005) 3 5 (by decide +kernel)
  obtain ⟨-, -, hid, -⟩ := hinv.slot _ _ _ hx
  have ho : (phState (phRun defaultCfg sgWho yes ph0 offAgain)).up.sm.order = [0] := by decide +kernel
  rw [ho, List.mem_singleton] at hid
  subst hid
  have : ((phState (phRun defaultCfg sgWho yes ph0 offAgain)).up.sm.slot 0 5).isNone = true := by decide +kernel
  rw [hx] at this
  cases this

/-! ## One PDP context -/

theorem deact_by {c c' : Sndcp.SnCtx} {o : List Sndcp.SnOut} {t n : Nat} (hi : Sndcp.EntInv c)
    (h : Sndcp.deactivateInd c t n = .ok (c', o)) : o = [.deactivateRsp t n] ∧
      ∀ t' sapi n', Sndcp.byDlciNsapi c' t' sapi n' = if t' = t ∧ n' = n then none else Sndcp.byDlciNsapi c t' sapi n' := by
  unfold Sndcp.deactivateInd at h
  split at h
  · cases h
  · rename_i m hf
    split at h
    · cases h
    · split at h
      · cases h
      · rename_i e he
        injection h with h
        injection h with h1 h2
        subst h1 h2
        refine ⟨rfl, ?_⟩
        have hmt : m.tlli = t := by simpa using List.find?_some hf
        have hml := List.mem_of_find?_eq_some hf
        have hother : ∀ l : List Sndcp.Snme, (∀ t', t' ≠ t → l.find? (fun m => m.tlli = t') = c.snmes.find? (fun m => m.tlli = t')) →
            (∀ sapi n', Sndcp.byDlciNsapi { c with snmes := l } t sapi n' = if n' = n then none else Sndcp.byDlciNsapi c t sapi n') →
            ∀ t' sapi n', Sndcp.byDlciNsapi { c with snmes := l } t' sapi n' =
              if t' = t ∧ n' = n then none else Sndcp.byDlciNsapi c t' sapi n' := by
          intro l h1 h2 t' sapi n'
          by_cases ht : t' = t
          · subst ht
            rw [h2]
            simp
          · rw [if_neg (by rintro ⟨h, -⟩; exact ht h)]
            unfold Sndcp.byDlciNsapi Sndcp.SnCtx.find
            rw [h1 t' ht]
        have hslot : ∀ i f, (m.set n none).sne i = some f → i < 16 := by
          intro i f hfi
          rw [Sndcp.set_sne] at hfi
          split at hfi
          · cases hfi
          · exact ((hi.2 m hml).2 i f hfi).1
        split
        · rename_i hemp
          rw [Sndcp.isEmpty_iff _ hslot] at hemp
          apply hother
          · intro t' ht'
            have : ∀ l : List Sndcp.Snme, (Sndcp.removeFirst t l).find? (fun m => m.tlli = t') = l.find? (fun m => m.tlli = t') := by
              intro l
              induction l with
              | nil => rfl
              | cons a l ih =>
                unfold Sndcp.removeFirst
                by_cases ha : a.tlli = t
                · rw [if_pos ha, List.find?_cons, decide_eq_false (by rw [ha]; exact Ne.symm ht')]
                · rw [if_neg ha, List.find?_cons, List.find?_cons, ih]
            exact this _
          · intro sapi n'
            have hno : (Sndcp.removeFirst t c.snmes).find? (fun m => m.tlli = t) = none := by
              rw [Sndcp.find_none_iff]
              intro x hx
              exact ((Sndcp.mem_removeFirst _ hi.1 _ _).1 hx).2
            unfold Sndcp.byDlciNsapi Sndcp.SnCtx.find
            dsimp only
            rw [hno]
            unfold Sndcp.SnCtx.find at hf
            rw [hf]
            dsimp only
            split
            · rfl
            · rename_i hn
              have := hemp n'
              rw [Sndcp.set_sne, if_neg hn] at this
              rw [this]
        · apply hother
          · intro t' ht'
            have : ∀ l : List Sndcp.Snme, (Sndcp.replaceFirst t (m.set n none) l).find? (fun m => m.tlli = t') = l.find? (fun m => m.tlli = t') := by
              intro l
              induction l with
              | nil => rfl
              | cons a l ih =>
                unfold Sndcp.replaceFirst
                by_cases ha : a.tlli = t
                · have h1 : ¬ (m.set n none).tlli = t' := by
                    show ¬ m.tlli = t'; rw [hmt]; exact Ne.symm ht'
                  have h2 : ¬ a.tlli = t' := by rw [ha]; exact Ne.symm ht'
                  rw [if_pos ha, List.find?_cons, List.find?_cons, decide_eq_false h1, decide_eq_false h2]
                · rw [if_neg ha, List.find?_cons, List.find?_cons, ih]
            exact this _
          · intro sapi n'
            have hno : (Sndcp.replaceFirst t (m.set n none) c.snmes).find? (fun m => m.tlli = t) = some (m.set n none) :=
              find_rf (m' := m.set n none) hmt _ _ hf
            unfold Sndcp.byDlciNsapi Sndcp.SnCtx.find
            dsimp only
            rw [hno]
            unfold Sndcp.SnCtx.find at hf
            rw [hf]
            dsimp only
            rw [Sndcp.set_sne]
            by_cases hn : n' = n
            · rw [if_pos hn, if_pos hn]
            · rw [if_neg hn, if_neg hn]

theorem put_tlli (c : SmCtx) (id n : Nat) (o : Option Sme) (id' : Nat) : ((c.put id n o).ms id').tlli = (c.ms id').tlli := by
  show ((if id' = id then (c.ms id).setPdp n o else c.ms id')).tlli = _
  split
  · rename_i h; subst h; rfl
  · rfl

theorem put_msByTlli (c : SmCtx) (id n : Nat) (o : Option Sme) (t : Nat) : (c.put id n o).msByTlli t = c.msByTlli t := by
  unfold SmCtx.msByTlli
  show c.order.find? _ = c.order.find? _
  congr 1
  funext x
  rw [put_tlli]

/-- SM's part: the user is told and the PDP context ends. -/
theorem sm_deact {c : SmCtx} {id n t : Nat} {x : Sme} (hm : c.msByTlli t = some id) (hx : c.slot id n = some x)
    (hn : 5 ≤ n ∧ n ≤ 15) (hp : x.pco.length ≤ 253) (hs : x.nsapi = n) : ∃ x' rc,
      smStep c (.snsmDeactRsp t n) = .ok (c.put id n (some x'), [.deactInd id n causeReactRqd x.pco], rc) ∧
      x'.st = .inactive ∧ x'.pco = x.pco := by
  have hv : nsapiValid n = true := by unfold nsapiValid; simpa using hn
  have hx' : (c.ms id).pdp n = some x := hx
  simp only [smStep]
  unfold withNsapi
  rw [hm]
  dsimp only
  rw [if_pos hv, hx']
  dsimp only
  unfold deactOut pcoToPrim
  rw [if_pos (by unfold pcoPrimMax; omega), Res.bind_ok]
  dsimp only
  rw [hs]
  unfold smDispatch smFsm
  cases hst : x.st with
  | inactive => exact ⟨x, _, rfl, hst, rfl⟩
  | pending => exact ⟨toInactive x, _, rfl, rfl, rfl⟩
  | active => exact ⟨toInactive x, _, rfl, rfl, rfl⟩

/-- SNDCP is told to deactivate a PDP context of SM: if it has it, it no longer takes packets for it, SM's PDP context
ends and the user is told; nothing else changes. -/
theorem deact_one (cfg : GmmCfg) (who : Nat → Ident) (ok : GmmOut → Bool) {s : Phone} {id n t : Nat} {x : Sme}
    (hi : SmInv s.up.sm) (he : Sndcp.EntInv s.sn) (hm : s.up.sm.msByTlli t = some id) (hx : s.up.sm.slot id n = some x)
    (hn : 5 ≤ n) (hp : x.pco.length ≤ 253) :
    ∃ s' tr, phUp cfg who ok s (.sm (.snsmDeactInd t n)) = .ok (s', tr) ∧ SmInv s'.up.sm ∧ Sndcp.EntInv s'.sn ∧
      s'.up.sm.msByTlli t = some id ∧
      (∀ t' sapi n', Carries s' t' sapi n' ↔ Carries s t' sapi n' ∧ ¬ (t' = t ∧ n' = n)) ∧
      ((∃ sapi, Carries s t sapi n) → Ended s'.up.sm id n ∧
        ∃ pco ph, (PhOut.sg (.sm (.deactInd id n causeReactRqd pco)), ph) ∈ tr) ∧
      (∀ id' n', ¬ (id' = id ∧ n' = n) → s'.up.sm.slot id' n' = s.up.sm.slot id' n') := by
  obtain ⟨hns, h16, -⟩ := hi.slot _ _ _ hx
  show ∃ s' tr, phSn cfg who ok s (.deactivateInd t n) = .ok (s', tr) ∧ _
  have hgood := deactivate_good s.sn he t n h16
  unfold phSn
  cases hd : Sndcp.deactivateInd s.sn t n with
  | ub f => rw [hd] at hgood; exact hgood.elim
  | err e =>
    have hno : ∀ sapi, ¬ Carries s t sapi n := by
      intro sapi hc
      obtain ⟨m, e', hf, he', -⟩ := carries_lt hc
      unfold Sndcp.deactivateInd at hd
      rw [hf] at hd
      dsimp only at hd
      rw [if_neg (by omega), he'] at hd
      cases hd
    refine ⟨s, [], ?_, hi, he, hm, fun t' sapi n' => ⟨fun h => ⟨h, ?_⟩, fun h => h.1⟩, ?_, fun _ _ _ => rfl⟩
    · show (match Sndcp.deactivateInd s.sn t n with | .ok r => _ | .err _ => _ | .ub f => _) = _
      rw [hd]
    · rintro ⟨rfl, rfl⟩; exact hno _ h
    · rintro ⟨sapi, h⟩; exact absurd h (hno _)
  | ok r =>
    obtain ⟨c', o⟩ := r
    rw [hd] at hgood
    obtain ⟨ho, hby⟩ := deact_by he hd
    subst ho
    obtain ⟨x', rc, hsm, hst, -⟩ := sm_deact hm hx ⟨hn, by omega⟩ hp hns
    refine ⟨⟨⟨s.up.sm.put id n (some x'), s.up.gmm⟩, c'⟩, [(.sg (.sm (.deactInd id n causeReactRqd x.pco)),
      ⟨⟨s.up.sm.put id n (some x'), s.up.gmm⟩, c'⟩)], ?_, step_inv hi hsm, hgood.1, (put_msByTlli _ _ _ _ _).trans hm, ?_, ?_, ?_⟩
    · show (match Sndcp.deactivateInd s.sn t n with
        | .ok r => phFold (phBack cfg who ok) ⟨s.up, r.1⟩ r.2 | .err _ => _ | .ub f => _) = _
      rw [hd]
      show (phSm cfg who ok ⟨s.up, c'⟩ (.snsmDeactRsp t n) >>= fun r =>
        phFold (phBack cfg who ok) r.1 [] >>= fun t => Res.ok (t.1, r.2 ++ t.2)) = _
      have : sgStep cfg who ok s.up (.snsmDeactRsp t n) =
          .ok (⟨s.up.sm.put id n (some x'), s.up.gmm⟩, [.sm (.deactInd id n causeReactRqd x.pco)]) := by
        show (smStep s.up.sm (.snsmDeactRsp t n) >>= fun r => sgFold (sgDown cfg ok (who 0) []) ⟨r.1, s.up.gmm⟩ r.2.1) = _
        rw [hsm, Res.bind_ok]
        rfl
      unfold phSm
      rw [this, Res.bind_ok]
      rfl
    · intro t' sapi n'
      unfold Carries
      dsimp only
      rw [hby]
      by_cases h : t' = t ∧ n' = n
      · rw [if_pos h]; simp [h]
      · rw [if_neg h]; simp [h]
    · intro _
      refine ⟨fun y hy => ?_, x.pco, _, List.mem_singleton.2 rfl⟩
      dsimp only at hy
      rw [slot_put, if_pos ⟨rfl, rfl⟩] at hy
      injection hy with hy
      rw [← hy]; exact hst
    · intro id' n' h
      dsimp only
      rw [slot_put, if_neg h]

/-- The same for several PDP contexts. -/
theorem deact_many (cfg : GmmCfg) (who : Nat → Ident) (ok : GmmOut → Bool) {id t : Nat} : ∀ (ns : List Nat) (s : Phone),
    ns.Nodup → SmInv s.up.sm → Sndcp.EntInv s.sn → s.up.sm.msByTlli t = some id →
    (∀ n ∈ ns, ∃ x, s.up.sm.slot id n = some x ∧ 5 ≤ n ∧ x.pco.length ≤ 253) →
    ∃ s' tr, phFold (phUp cfg who ok) s (ns.map fun n => .sm (.snsmDeactInd t n)) = .ok (s', tr) ∧
      (∀ t' sapi n', Carries s' t' sapi n' ↔ Carries s t' sapi n' ∧ ¬ (t' = t ∧ n' ∈ ns)) ∧
      (∀ n ∈ ns, (∃ sapi, Carries s t sapi n) → Ended s'.up.sm id n ∧
        ∃ pco ph, (PhOut.sg (.sm (.deactInd id n causeReactRqd pco)), ph) ∈ tr) ∧
      (∀ id' n', ¬ (id' = id ∧ n' ∈ ns) → s'.up.sm.slot id' n' = s.up.sm.slot id' n') := by
  intro ns
  induction ns with
  | nil =>
    intro s _ _ _ _ _
    exact ⟨s, [], rfl, fun t' sapi n' => by simp, fun n hn => (by cases hn), fun _ _ _ => rfl⟩
  | cons n ns ih =>
    intro s hd hi he hm hall
    rw [List.nodup_cons] at hd
    obtain ⟨x, hx, hn5, hp⟩ := hall n List.mem_cons_self
    obtain ⟨s1, tr1, e1, hi1, he1, hm1, hc1, hd1, hs1⟩ := deact_one cfg who ok hi he hm hx hn5 hp
    have hne : ∀ k ∈ ns, k ≠ n := fun k hk h => hd.1 (h ▸ hk)
    obtain ⟨s2, tr2, e2, hc2, hd2, hs2⟩ := ih s1 hd.2 hi1 he1 hm1 (by
      intro k hk
      rw [hs1 id k (by rintro ⟨-, h⟩; exact hne k hk h)]
      exact hall k (List.mem_cons_of_mem _ hk))
    refine ⟨s2, tr1 ++ tr2, ?_, ?_, ?_, ?_⟩
    · rw [List.map_cons]
      show (phUp cfg who ok s (.sm (.snsmDeactInd t n)) >>= fun r =>
        phFold (phUp cfg who ok) r.1 (ns.map fun n => .sm (.snsmDeactInd t n)) >>= fun t => Res.ok (t.1, r.2 ++ t.2)) = _
      rw [e1, Res.bind_ok]
      dsimp only
      rw [e2]
      rfl
    · intro t' sapi n'
      rw [hc2, hc1, List.mem_cons]
      constructor
      · rintro ⟨⟨h1, h2⟩, h3⟩
        refine ⟨h1, ?_⟩
        rintro ⟨h4, h5 | h5⟩
        · exact h2 ⟨h4, h5⟩
        · exact h3 ⟨h4, h5⟩
      · rintro ⟨h1, h2⟩
        exact ⟨⟨h1, fun h => h2 ⟨h.1, Or.inl h.2⟩⟩, fun h => h2 ⟨h.1, Or.inr h.2⟩⟩
    · intro k hk hc
      rcases List.mem_cons.1 hk with rfl | hk'
      · obtain ⟨h1, pco, ph, h2⟩ := hd1 hc
        refine ⟨fun y hy => ?_, pco, ph, List.mem_append_left _ h2⟩
        rw [hs2 id k (by rintro ⟨-, h⟩; exact hd.1 h)] at hy
        exact h1 y hy
      · obtain ⟨sapi, hc⟩ := hc
        obtain ⟨h1, pco, ph, h2⟩ := hd2 k hk' ⟨sapi, (hc1 _ _ _).2 ⟨hc, fun h => hne k hk' h.2⟩⟩
        exact ⟨h1, pco, ph, List.mem_append_right _ h2⟩
    · intro id' n' h
      rw [hs2 id' n' (fun h' => h ⟨h'.1, List.mem_cons_of_mem _ h'.2⟩),
        hs1 id' n' (fun h' => h ⟨h'.1, h'.2 ▸ List.mem_cons_self⟩)]

/-! ## The network's view of the PDP contexts -/

theorem sgFold_sms {cfg : GmmCfg} {ok : GmmOut → Bool} (u : SmGmm) (t : Nat) (ns : List Nat) :
    sgFold (sgData cfg ok) u (ns.map fun n => .snsmDeactInd t n) = .ok (u, ns.map fun n => .sm (.snsmDeactInd t n)) := by
  induction ns with
  | nil => rfl
  | cons n ns ih =>
    rw [List.map_cons]
    show (Res.ok (u, [SgOut.sm (.snsmDeactInd t n)]) >>= fun r => sgFold (sgData cfg ok) r.1 (ns.map fun n => .snsmDeactInd t n) >>=
      fun t => Res.ok (t.1, r.2 ++ t.2)) = _
    rw [Res.bind_ok, ih]
    rfl

/-- **C167** (partial): when the network says which PDP contexts it has (GMMSM-MODIFY.ind, for the session of mobile
station `id` and with its TLLI `t`, which no other mobile station has), SNDCP no longer takes packets for those of SM's
PDP contexts that the network calls inactive; those that carried packets have ended, and the user is told so; SNDCP
goes on taking packets for everything else, and no other PDP context changes. -/
theorem c167_partial (cfg : GmmCfg) (who : Nat → Ident) (ok : GmmOut → Bool) (s : Phone) (id sess i ptmsi sig t : Nat)
    (imsi : List Nat) (ra : Octets) (o1 o2 : UInt8) (np : Bool) (nn : Octets)
    (hi : SmInv s.up.sm) (he : Sndcp.EntInv s.sn) (hb : s.up.sm.bySess sess = some (id, i))
    (ht : ∀ id' ∈ s.up.sm.order, id' ≠ id → (s.up.sm.ms id').tlli ≠ t)
    (hp : ∀ n x, s.up.sm.slot id n = some x → 5 ≤ n ∧ x.pco.length ≤ 253) :
    ∃ u os s' tr, sgUp cfg ok s.up (imsi, .modifyInd sess ptmsi sig t ra (some [o1, o2]) np nn) = .ok (u, os) ∧
      phFold (phUp cfg who ok) ⟨u, s.sn⟩ os = .ok (s', tr) ∧
      (∀ t' sapi n, Carries s' t' sapi n ↔ Carries s t' sapi n ∧
        ¬ (t' = t ∧ (s.up.sm.slot id n).isSome ∧ Spec.Sm.statusActive o1 o2 n = false)) ∧
      (∀ n, (s.up.sm.slot id n).isSome → Spec.Sm.statusActive o1 o2 n = false → (∃ sapi, Carries s t sapi n) →
        Ended s'.up.sm id n ∧ ∃ pco ph, (PhOut.sg (.sm (.deactInd id n causeReactRqd pco)), ph) ∈ tr) ∧
      (∀ id' n, (id' = id → Spec.Sm.statusActive o1 o2 n = true) → s'.up.sm.slot id' n = s.up.sm.slot id' n) := by
  obtain ⟨hid, h16, x0, hx0, -⟩ := bySess_some hb
  have hx0' : (s.up.sm.ms id).pdp i = some x0 := hx0
  obtain ⟨c', o, rc, hsm⟩ : ∃ c' o rc, smStep s.up.sm (.modifyInd sess ptmsi sig t (some (o1.toNat + 256 * o2.toNat))) =
      .ok (c', o, rc) := by
    simp only [smStep, withSess, hb, hx0']
    exact ⟨_, _, _, rfl⟩
  have hi' := step_inv hi hsm
  rcases status_step hi hsm with ⟨-, -, h⟩ | ⟨id2, i2, x2, -, -, -, hnd, hmem, hb2, hc'⟩
  · exact absurd (bySess_some hb).2.2.choose_spec.2 (h _ _ _ (bySess_some hb).2.2.choose_spec.1)
  · rw [hb] at hb2
    injection hb2 with hb2
    injection hb2 with h1 h2
    subst h1 h2
    have hslot : ∀ a b, c'.slot a b = s.up.sm.slot a b := by
      intro a b
      rw [hc']
      exact slot_setMs_same s.up.sm id (withGmm (s.up.sm.ms id) ptmsi sig t) rfl a b
    have hby : c'.msByTlli t = some id := by
      unfold SmCtx.msByTlli
      have hord : c'.order = s.up.sm.order := by rw [hc']; rfl
      have htl : ∀ a, (c'.ms a).tlli = if a = id then t else (s.up.sm.ms a).tlli := by
        intro a
        rw [hc']
        show ((if a = id then withGmm (s.up.sm.ms id) ptmsi sig t else s.up.sm.ms a)).tlli = _
        split <;> rfl
      rw [hord]
      have : ∀ l : List Nat, id ∈ l → (∀ a ∈ l, a ∈ s.up.sm.order) →
          l.find? (fun a => decide ((c'.ms a).tlli = t)) = some id := by
        intro l
        induction l with
        | nil => intro h; cases h
        | cons a l ih =>
          intro h1 h2
          rw [List.find?_cons]
          by_cases ha : a = id
          · subst ha
            rw [htl, if_pos rfl]
            simp
          · rw [htl, if_neg ha, decide_eq_false (ht a (h2 a List.mem_cons_self) ha)]
            exact ih ((List.mem_cons.1 h1).resolve_left (Ne.symm ha)) (fun b hb => h2 b (List.mem_cons_of_mem _ hb))
      exact this _ hid fun _ h => h
    obtain ⟨ns, hns⟩ : ∃ ns : List Nat, o = ns.map fun n => .snsmDeactInd t n := by
      clear hsm hnd
      have : ∀ y ∈ o, ∃ n, y = SmOut.snsmDeactInd t n := fun y hy => by
        obtain ⟨n, hn, -⟩ := (hmem y).1 hy
        exact ⟨n, hn⟩
      clear hmem
      induction o with
      | nil => exact ⟨[], rfl⟩
      | cons y o ih =>
        obtain ⟨n, rfl⟩ := this y List.mem_cons_self
        obtain ⟨ns, rfl⟩ := ih fun z hz => this z (List.mem_cons_of_mem _ hz)
        exact ⟨n :: ns, rfl⟩
    have hin : ∀ n, n ∈ ns ↔ (s.up.sm.slot id n).isSome ∧ Spec.Sm.statusActive o1 o2 n = false := by
      intro n
      have h1 : n ∈ ns ↔ SmOut.snsmDeactInd t n ∈ o := by
        rw [hns, List.mem_map]
        constructor
        · intro h; exact ⟨n, h, rfl⟩
        · rintro ⟨a, ha, h⟩; injection h with _ h; exact h ▸ ha
      rw [h1, hmem]
      constructor
      · rintro ⟨a, h, h2⟩; injection h with _ h; exact h ▸ h2
      · intro h; exact ⟨n, rfl, h⟩
    have hnod : ns.Nodup := by
      rw [hns] at hnd
      exact List.Nodup.of_map _ hnd
    obtain ⟨s', tr, e, hc, hd, hs⟩ := deact_many cfg who ok (id := id) (t := t) ns ⟨⟨c', s.up.gmm⟩, s.sn⟩ hnod hi' he hby (by
      intro n hn
      obtain ⟨h1, -⟩ := (hin n).1 hn
      obtain ⟨x, hx⟩ := Option.isSome_iff_exists.1 h1
      exact ⟨x, (hslot _ _).trans hx, hp n x hx⟩)
    refine ⟨⟨c', s.up.gmm⟩, ns.map fun n => .sm (.snsmDeactInd t n), s', tr, ?_, e, ?_, ?_, ?_⟩
    · show (smStep s.up.sm (.modifyInd sess ptmsi sig t (some (o1.toNat + 256 * o2.toNat))) >>= fun r =>
        sgFold (sgData cfg ok) ⟨r.1, s.up.gmm⟩ r.2.1) = _
      rw [hsm, Res.bind_ok]
      dsimp only
      rw [hns]
      exact sgFold_sms _ _ _
    · intro t' sapi n
      rw [hc, hin]
      rfl
    · intro n h1 h2 h3
      exact hd n ((hin n).2 ⟨h1, h2⟩) h3
    · intro id' n h
      rw [hs id' n (by
        rintro ⟨h1, h2⟩
        have := ((hin n).1 h2).2
        rw [h h1] at this
        cases this)]
      exact hslot _ _

/-- A PDP context in use. -/
def usedSme : Sme :=
  ⟨0, 5, 3, ⟨0x21, none, none⟩, 4, List.replicate 22 0, 3, [], [], 0, .active, .off, 0⟩

/-- A phone with it: SNDCP takes packets for NSAPI 5, SAPI 3. -/
def usedPhone : Phone :=
  ⟨⟨⟨[0], fun id => ⟨0xc0000005, 0, 0xc0000005, fun n => if id = 0 ∧ n = 5 then some usedSme else none⟩, 1⟩, sg0.gmm⟩,
   { ms := true, snmes := [⟨0xc0000005, fun n => if n = 5 then some { sapi := 3, nsapi := 5 } else none⟩] }⟩

/-- The hypotheses are met, and the PDP context carries packets until the network says it has none. -/
example : Sndcp.EntInv usedPhone.sn ∧ usedPhone.up.sm.bySess 0 = some (0, 5) ∧
    (∀ id' ∈ usedPhone.up.sm.order, id' ≠ 0 → (usedPhone.up.sm.ms id').tlli ≠ 0xc0000005) ∧
    (∀ n x, usedPhone.up.sm.slot 0 n = some x → 5 ≤ n ∧ x.pco.length ≤ 253) ∧
    Carries usedPhone 0xc0000005 3 5 ∧ (usedPhone.up.sm.slot 0 5).isSome ∧ Spec.Sm.statusActive 0 0 5 = false := by
  refine ⟨⟨by decide, ?_⟩, by decide, ?_, ?_, by decide, by decide, by decide⟩
  · intro m hm
    have := List.mem_singleton.1 hm
    subst this
    refine ⟨⟨5, rfl⟩, ?_⟩
    intro n e h
    dsimp only at h
    split at h
    · rename_i hn; injection h with h; subst h; subst hn; exact ⟨by decide, rfl⟩
    · cases h
  · intro id' h hne
    exact absurd (List.mem_singleton.1 h) hne
  · intro n x h
    show _ ∧ _
    have h' : (if 0 = 0 ∧ n = 5 then some usedSme else none) = some x := h
    split at h'
    · rename_i hn; obtain ⟨-, hn⟩ := hn; injection h' with h'; subst h'; subst hn; exact ⟨by decide, by decide⟩
    · cases h'

example : SmInv usedPhone.up.sm := by
  constructor
  intro id i x h
  have h' : (if id = 0 ∧ i = 5 then some usedSme else none) = some x := h
  split at h'
  · rename_i hn
    obtain ⟨rfl, rfl⟩ := hn
    injection h' with h'
    subst h'
    decide
  · cases h'

end Verif.Props
