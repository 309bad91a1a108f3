import Verif.Rlc.CtxStep
import Verif.Spec.Sched

/-!
# Lemmas on the choice of a block
-/
namespace Verif.Rlc
open Verif Verif.Spec

theorem blocksIn_append (a b : List CtxOut) : blocksIn (a ++ b) = blocksIn a ++ blocksIn b := by
  simp [blocksIn, List.filterMap_append]

theorem blocksIn_rach (n : Nat) (outs : List UlOut) : blocksIn (rachOuts n outs) = [] := by
  unfold blocksIn rachOuts
  rw [List.filterMap_filterMap, List.filterMap_eq_nil_iff]
  intro a _
  cases a <;> rfl

theorem blocksIn_blockOut (ts fn : Nat) (m : Option (Nat × UlBlk)) :
    blocksIn (blockOut ts fn m) = match m with | some (n, b) => [(ts, fn, n, b)] | none => [] := by
  cases m with
  | none => rfl
  | some m => rfl

theorem tickAll_out (fn ts : Nat) (ns : List Nat) :
    ∀ {s s' : Ctx} {o : List CtxOut}, s.tickAll fn ts ns = .ok (s', o) → blocksIn o = [] := by
  induction ns with
  | nil => intro s s' o h; simp only [Ctx.tickAll, Res.ok.injEq, Prod.mk.injEq] at h; rw [← h.2]; rfl
  | cons n ns ih =>
    intro s s' o h
    simp only [Ctx.tickAll] at h
    split at h
    · exact ih h
    · split at h
      · split at h
        · rename_i s1 _ s2 o2 h2
          simp only [Res.ok.injEq, Prod.mk.injEq] at h
          rw [← h.2, blocksIn_append, ih h2, List.append_nil]
          unfold Ctx.tickDl
          split <;> rfl
        · cases h
        · cases h
      · cases h
      · cases h

theorem find?_imp {α : Type} {p q : α → Bool} (hpq : ∀ x, q x = true → p x = true) :
    ∀ {l : List α} {a : α}, l.find? p = some a → q a = true → l.find? q = some a := by
  intro l
  induction l with
  | nil => intro a h; cases h
  | cons b l ih =>
    intro a h ha
    simp only [List.find?_cons] at h ⊢
    split at h
    · cases h
      rw [ha]
    · rename_i hb
      cases hq : q b with
      | true => rw [hpq b hq] at hb; cases hb
      | false => exact ih h ha

theorem dataRts_iff {g : Gre} {ts usf : Nat} : g.dataRts ts usf = true ↔ OwnsBlock g ts usf ∧ Transfers g := by
  unfold Gre.dataRts OwnsBlock Transfers MaySend
  cases h : g.ul with
  | none => simp
  | some y =>
    obtain ⟨id, t⟩ := y
    simp only [UlTbf.dataRts, UlTbf.dummyRts, Bool.and_eq_true, Bool.or_eq_true, beq_iff_eq]
    constructor
    · rintro ⟨h1, h2⟩
      exact ⟨⟨id, t, rfl, h1⟩, ⟨id, t, rfl, h2⟩⟩
    · rintro ⟨⟨i, t', e, h1⟩, ⟨j, t'', e', h2⟩⟩
      cases e
      cases e'
      exact ⟨h1, h2⟩

theorem dummyRts_iff {g : Gre} {ts usf : Nat} : g.dummyRts ts usf = true ↔ OwnsBlock g ts usf := by
  unfold Gre.dummyRts OwnsBlock MaySend
  cases h : g.ul with
  | none => simp
  | some y =>
    obtain ⟨id, t⟩ := y
    simp only [UlTbf.dummyRts, beq_iff_eq]
    constructor
    · intro h1
      exact ⟨id, t, rfl, h1⟩
    · rintro ⟨i, t', e, h1⟩
      cases e
      exact h1

theorem assRts_iff {t : UlTbf} {fn ts usf : Nat} : t.assRts fn ts usf = true ↔
    t.ass = .schedResReq ∧ ∃ u, t.p1.usf ts = some u ∧
      (t.sba = true ∧ (t.startExists = true → t.startFn = fn) ∨ t.sba = false ∧ u = usf) := by
  unfold UlTbf.assRts
  cases h : t.ass with
  | schedResReq =>
    cases hu : t.p1.usf ts with
    | none => simp
    | some u => cases hs : t.sba <;> cases he : t.startExists <;> simp
  | _ => simp

/-- Nothing changes if the entity is put back as it is. -/
theorem putUl_same {b : Bool} {P : UlTbf → Prop} {s : Ctx} (h : s.WF b P) {g : Gre} (hg : g ∈ s.es) {i : Nat} {t : UlTbf}
    (hu : g.ul = some (i, t)) : s.putUl g.n i (some t) = s := by
  show ({ s with es := s.es.map fun g' => if g'.n = g.n then { g' with ul := some (i, t) } else g' } : Ctx) = s
  have : (s.es.map fun g' => if g'.n = g.n then { g' with ul := some (i, t) } else g') = s.es := by
    conv => rhs; rw [← List.map_id s.es]
    refine List.map_congr_left fun g' hg' => ?_
    split
    · rename_i e
      rw [h.only hg g' hg' e, ← hu]
      rfl
    · rfl
  rw [this]

theorem createMsg_none {t : UlTbf} {e : Bool} {n : Nat} (h : msgOf n (t.createMsg e).2 = none) :
    (t.createMsg e).1 = t ∧ (e = true → t.ass ≠ .schedResReq ∧ t.ass ≠ .waitStart2) := by
  unfold UlTbf.createMsg at h ⊢
  cases ha : t.ass <;> cases e <;> simp_all [msgOf]

theorem createMsg_some {t : UlTbf} {e : Bool} {n : Nat} {m : Nat × UlBlk} (h : msgOf n (t.createMsg e).2 = some m) :
    e = true ∧ (t.ass = .schedResReq ∧ m = (n, .resReq) ∨ t.ass = .waitStart2 ∧ m = (n, .ctrlAck)) := by
  unfold UlTbf.createMsg at h
  cases ha : t.ass <;> cases e <;> simp_all [msgOf]

section
variable {b : Bool} {P : UlTbf → Prop}

theorem ulAssMsg_none {s : Ctx} (h : s.WF b P) {o : Avail} {n : Nat} (hm : (s.ulAssMsg o n).2 = none) :
    (s.ulAssMsg o n).1 = s ∧ ((∀ k, o.enc k = true) → ∀ g ∈ s.es, g.n = n → ∀ i t, g.ul = some (i, t) →
      t.ass ≠ .schedResReq ∧ t.ass ≠ .waitStart2) := by
  unfold Ctx.ulAssMsg at hm ⊢
  cases hg : s.gre? n with
  | none =>
    refine ⟨rfl, fun _ g hgm hn => ?_⟩
    have := gre?_of_mem h.nd hgm
    rw [hn, hg] at this
    cases this
  | some g =>
    obtain ⟨hgm, rfl⟩ := gre?_mem hg
    simp only [hg] at hm ⊢
    cases hu : g.ul with
    | none =>
      refine ⟨rfl, fun _ g' hg' hn i t e => ?_⟩
      rw [h.only hgm g' hg' hn, hu] at e
      cases e
    | some y =>
      obtain ⟨id, t⟩ := y
      simp only [hu] at hm ⊢
      obtain ⟨h1, h2⟩ := createMsg_none hm
      refine ⟨?_, fun ho g' hg' hn i t' e => ?_⟩
      · rw [h1]; exact putUl_same h hgm hu
      · rw [h.only hgm g' hg' hn, hu] at e
        cases e
        exact h2 (ho _)

theorem ulAssMsg_some {s : Ctx} {o : Avail} {n : Nat} {m : Nat × UlBlk} (hm : (s.ulAssMsg o n).2 = some m) :
    ∃ g ∈ s.es, g.n = n ∧ ∃ i t, g.ul = some (i, t) ∧
      (t.ass = .schedResReq ∧ m = (n, .resReq) ∨ t.ass = .waitStart2 ∧ m = (n, .ctrlAck)) := by
  unfold Ctx.ulAssMsg at hm
  cases hg : s.gre? n with
  | none => simp only [hg] at hm; cases hm
  | some g =>
    obtain ⟨hgm, rfl⟩ := gre?_mem hg
    simp only [hg] at hm
    cases hu : g.ul with
    | none => simp only [hu] at hm; cases hm
    | some y =>
      obtain ⟨id, t⟩ := y
      simp only [hu] at hm
      exact ⟨g, hgm, rfl, id, t, hu, (createMsg_some hm).2⟩

/-- The owners of the block in the second state are as in the first. -/
def OwnFrom (ts usf : Nat) (s s2 : Ctx) : Prop :=
  ∀ g2 ∈ s2.es, OwnsBlock g2 ts usf → ∃ g1 ∈ s.es, g1.n = g2.n ∧ g1.ul = g2.ul

theorem OwnFrom.refl (ts usf : Nat) (s : Ctx) : OwnFrom ts usf s s := fun g h _ => ⟨g, h, rfl, rfl⟩

theorem OwnFrom.trans {ts usf : Nat} {s s1 s2 : Ctx} (h : OwnFrom ts usf s s1) (h' : OwnFrom ts usf s1 s2) :
    OwnFrom ts usf s s2 := by
  intro g2 hg2 ho
  obtain ⟨g1, hg1, e1, e2⟩ := h' g2 hg2 ho
  obtain ⟨g0, hg0, f1, f2⟩ := h g1 hg1 (by unfold OwnsBlock at ho ⊢; rw [e2]; exact ho)
  exact ⟨g0, hg0, f1.trans e1, f2.trans e2⟩

/-- A TBF without an allocation owns no block. -/
theorem ownFrom_put {ts usf : Nat} (s : Ctx) (n i : Nat) {t : UlTbf} (ht : t.cur = .zero) :
    OwnFrom ts usf s (s.putUl n i (some t)) := by
  intro g2 hg2 ho
  obtain ⟨g, hg, rfl⟩ := mem_setGre.1 hg2
  split at ho
  · obtain ⟨j, t', e, hm⟩ := ho
    simp only [Option.some.injEq, Prod.mk.injEq] at e
    rw [← e.2] at hm
    unfold MaySend UlAlloc.usf at hm
    rw [ht] at hm
    have hz : ∀ k, UlAlloc.zero.ts.getD k none = none := by
      intro k
      match k with
      | 0 | 1 | 2 | 3 | 4 | 5 | 6 | 7 => rfl
      | k + 8 => rfl
    rw [hz] at hm
    cases hm
  · rename_i e
    rw [if_neg e]
    exact ⟨g, hg, rfl, rfl⟩

theorem fromDl_cur (ts : Nat) : ∃ t, (UlStart.fromDl ts).run.1 = some t ∧ t.cur = .zero := ⟨_, rfl, rfl⟩

theorem fromReleasing_cur (a : UlAlloc) : ∃ t, (UlStart.fromReleasing a).run.1 = some t ∧ t.cur = .zero ∧
    t.ass = .schedResReq ∧ t.p1 = a ∧ t.sba = false := ⟨_, rfl, rfl, rfl, rfl, rfl⟩

theorem dlAckMsg_none {s : Ctx} {o : Avail} {n ts : Nat} (tn usf : Nat) (hm : (s.dlAckMsg o n ts).2 = none) :
    OwnFrom tn usf s (s.dlAckMsg o n ts).1 ∧
    ((∀ k, o.enc k = true) → (s.dlAckMsg o n ts).1 = s ∧ ∀ g, s.gre? n = some g → g.dl = none) := by
  unfold Ctx.dlAckMsg at hm ⊢
  cases hg : s.gre? n with
  | none => exact ⟨OwnFrom.refl _ _ _, fun _ => ⟨rfl, fun g e => by cases e⟩⟩
  | some g =>
    simp only [hg] at hm ⊢
    cases hd : g.dl with
    | none => exact ⟨OwnFrom.refl _ _ _, fun _ => ⟨rfl, fun g e => by cases e; exact hd⟩⟩
    | some d =>
      simp only [hd] at hm ⊢
      by_cases he : o.enc .dlAck = true
      · rw [if_pos he] at hm; cases hm
      · rw [if_neg he]
        refine ⟨?_, fun ho => absurd (ho _) he⟩
        simp only []
        split
        · obtain ⟨t, h1, h2⟩ := fromDl_cur ts
          rw [h1]
          exact ownFrom_put (ts := tn) (usf := usf) s n s.tbfs h2
        · exact OwnFrom.refl _ _ _

theorem dlAckMsg_some {s : Ctx} {o : Avail} {n ts : Nat} {m : Nat × UlBlk} (hm : (s.dlAckMsg o n ts).2 = some m) :
    ∃ g ∈ s.es, g.n = n ∧ ∃ d, g.dl = some d ∧ m = (n, .dlAck (d.st = .finished) (g.wantsUl o)) := by
  unfold Ctx.dlAckMsg at hm
  cases hg : s.gre? n with
  | none => simp only [hg] at hm; cases hm
  | some g =>
    obtain ⟨hgm, rfl⟩ := gre?_mem hg
    simp only [hg] at hm
    cases hd : g.dl with
    | none => simp only [hd] at hm; cases hm
    | some d =>
      simp only [hd] at hm
      by_cases he : o.enc .dlAck = true
      · rw [if_pos he] at hm
        simp only [Option.some.injEq] at hm
        exact ⟨g, hgm, rfl, d, hd, hm.symm⟩
      · rw [if_neg he] at hm; cases hm

/-- The message for the new uplink TBF. -/
theorem newUlMsg_cases {s : Ctx} (h : s.WF b P) {o : Avail} {n id fn ts usf : Nat} {r : Ctx × Option (Nat × UlBlk)}
    (e : s.newUlMsg o n id fn ts usf = .ok r) :
    (∀ m, r.2 = some m → m = (n, .resReq)) ∧
    (r.2 = none → (∀ tn u, OwnFrom tn u s r.1) ∧ ¬ ∀ k, o.enc k = true) := by
  unfold Ctx.newUlMsg at e
  cases hg : s.gre? n with
  | none => simp only [hg] at e; cases e
  | some g =>
    obtain ⟨hgm, rfl⟩ := gre?_mem hg
    simp only [hg] at e
    cases hu : g.ul with
    | none => simp only [hu] at e; cases e
    | some y =>
      obtain ⟨i, old⟩ := y
      simp only [hu] at e
      obtain ⟨t, ht, hc, ha, hp, hs⟩ := fromReleasing_cur old.cur
      rw [ht] at e
      by_cases hr : ((Ctx.gre? ({ s.putUl g.n s.tbfs (some t) with
          tbfs := s.tbfs + 1, polls := dropTbf id s.polls } : Ctx) g.n).map fun g => g.assRts fn ts usf) = some true
      · rw [if_pos hr] at e
        simp only [Res.ok.injEq] at e
        subst e
        -- the entity as it is now
        have hg1 : Ctx.gre? ({ s.putUl g.n s.tbfs (some t) with
            tbfs := s.tbfs + 1, polls := dropTbf id s.polls } : Ctx) g.n = some { g with ul := some (s.tbfs, t) } := by
          have hnd : ((s.putUl g.n s.tbfs (some t)).es.map Gre.n).Nodup := by
            rw [putUl_n]; exact h.nd
          have := gre?_of_mem (s := ({ s.putUl g.n s.tbfs (some t) with
            tbfs := s.tbfs + 1, polls := dropTbf id s.polls } : Ctx)) hnd (g := { g with ul := some (s.tbfs, t) })
            (mem_setGre.2 ⟨g, hgm, (if_pos rfl).symm⟩)
          exact this
        unfold Ctx.ulAssMsg
        rw [hg1]
        simp only [ha, if_true]
        refine ⟨fun m hm => ?_, fun hm => ⟨fun tn u => ?_, fun ho => ?_⟩⟩
        · rcases (createMsg_some hm).2 with ⟨-, e⟩ | ⟨e, -⟩
          · exact e
          · rw [ha] at e; cases e
        · rw [(createMsg_none hm).1]
          have : OwnFrom tn u s (s.putUl g.n s.tbfs (some t)) := ownFrom_put s g.n s.tbfs hc
          refine OwnFrom.trans this ?_
          refine ownFrom_put (ts := tn) (usf := u) (Ctx.mk _ _ (s.putUl g.n s.tbfs (some t)).es _) g.n s.tbfs hc
        · exact ((createMsg_none hm).2 (ho _)).1 ha
      · rw [if_neg hr] at e
        cases e

theorem resReqMsg_none {s : Ctx} (h : s.WF b P) {o : Avail} {ua : Option Gre} (hm : (s.resReqMsg o ua).2 = none) :
    (s.resReqMsg o ua).1 = s ∧ ((∀ k, o.enc k = true) → ∀ u, ua = some u → ∀ g ∈ s.es, g.n = u.n →
      ∀ i t, g.ul = some (i, t) → t.ass ≠ .schedResReq) := by
  cases ua with
  | none => exact ⟨rfl, fun _ u e => by cases e⟩
  | some u =>
    obtain ⟨h1, h2⟩ := ulAssMsg_none (o := o) (n := u.n) h hm
    refine ⟨h1, fun ho u' e g hg hn i t hu => ?_⟩
    cases e
    exact (h2 ho g hg hn i t hu).1

theorem orNext_none {r : Ctx × Option (Nat × UlBlk)} {f : Ctx → Ctx × Option (Nat × UlBlk)}
    (h : (orNext r f).2 = none) : r.2 = none ∧ (f r.1).2 = none ∧ (orNext r f).1 = (f r.1).1 := by
  obtain ⟨s, m⟩ := r
  cases m with
  | none => exact ⟨rfl, h, rfl⟩
  | some m => cases h

theorem orNext_some {r : Ctx × Option (Nat × UlBlk)} {f : Ctx → Ctx × Option (Nat × UlBlk)} {m : Nat × UlBlk}
    (h : (orNext r f).2 = some m) : r.2 = some m ∨ r.2 = none ∧ (f r.1).2 = some m := by
  obtain ⟨s, m'⟩ := r
  cases m' with
  | none => exact .inr ⟨rfl, h⟩
  | some m' => exact .inl h

theorem ulAssMsg_ctrl {s : Ctx} {o : Avail} {n : Nat} {m : Nat × UlBlk} (hm : (s.ulAssMsg o n).2 = some m) :
    IsCtrl m.2 := by
  obtain ⟨g, -, -, i, t, -, ⟨-, e⟩ | ⟨-, e⟩⟩ := ulAssMsg_some hm <;> rw [e] <;> exact ⟨nofun, nofun⟩

theorem resReqMsg_ctrl {s : Ctx} {o : Avail} {ua : Option Gre} {m : Nat × UlBlk} (hm : (s.resReqMsg o ua).2 = some m) :
    IsCtrl m.2 := by
  cases ua with
  | none => cases hm
  | some u => exact ulAssMsg_ctrl (s := s) (o := o) (n := u.n) hm

theorem dlAckMsg_ctrl {s : Ctx} {o : Avail} {n ts : Nat} {m : Nat × UlBlk} (hm : (s.dlAckMsg o n ts).2 = some m) :
    IsCtrl m.2 := by
  obtain ⟨g, -, -, d, -, e⟩ := dlAckMsg_some hm
  rw [e]
  exact ⟨nofun, nofun⟩

theorem selectCtrl_ctrl {s : Ctx} (h : s.WF b P) {o : Avail} {fn ts usf : Nat} {ua : Option Gre} {c : Option Cand}
    {s2 : Ctx} {m : Nat × UlBlk} (e : s.selectCtrl o fn ts usf ua c = .ok (s2, some m)) : IsCtrl m.2 := by
  have ack : ∀ {n : Nat} {m : Nat × UlBlk}, (if o.enc .ctrlAck then some (n, UlBlk.ctrlAck) else none) = some m → IsCtrl m.2 := by
    intro n m hm
    split at hm
    · cases hm; exact ⟨nofun, nofun⟩
    · cases hm
  unfold Ctx.selectCtrl at e
  split at e
  · have hm := congrArg Prod.snd (Res.ok.inj e)
    rcases orNext_some hm with h1 | ⟨-, h1⟩
    · exact dlAckMsg_ctrl h1
    · exact resReqMsg_ctrl h1
  · split at e
    · rename_i r hr
      have hm := congrArg Prod.snd (Res.ok.inj e)
      rcases orNext_some hm with h1 | ⟨-, h1⟩
      · rw [(newUlMsg_cases h hr).1 _ h1]
        exact ⟨nofun, nofun⟩
      · exact resReqMsg_ctrl h1
    · cases e
    · cases e
  · have hm := congrArg Prod.snd (Res.ok.inj e)
    exact ack hm
  · have hm := congrArg Prod.snd (Res.ok.inj e)
    rcases orNext_some hm with h1 | ⟨-, h1⟩
    · exact ack h1
    · exact resReqMsg_ctrl h1
  · have hm := congrArg Prod.snd (Res.ok.inj e)
    rcases orNext_some hm with h1 | ⟨-, h1⟩
    · exact ulAssMsg_ctrl h1
    · exact resReqMsg_ctrl h1
  · have hm := congrArg Prod.snd (Res.ok.inj e)
    rcases orNext_some hm with h1 | ⟨-, h1⟩
    · exact resReqMsg_ctrl h1
    · exact dlAckMsg_ctrl h1
  · have hm := congrArg Prod.snd (Res.ok.inj e)
    exact resReqMsg_ctrl hm

end

/-- The trivial invariant is kept by all events. -/
theorem keeping_true (env : UlEnv) : Keeping env (fun _ _ => True) (fun _ => True) (fun _ => True) :=
  ⟨fun _ _ => trivial, fun _ _ _ _ => trivial, fun _ _ _ _ _ _ _ _ => trivial, fun _ _ _ _ _ _ _ => trivial⟩

/-- What the absence of a control message means. -/
structure NoCtrl (o : Avail) (fn ts usf : Nat) (ua : Option Gre) (c : Option Cand) (s s2 : Ctx) : Prop where
  own : OwnFrom ts usf s s2
  same : (∀ k, o.enc k = true) → s2 = s
  cand : (∀ k, o.enc k = true) → ∀ c', c = some c' → ∃ n id, c' = .pollUlAss n id ∧
    ∀ g ∈ s.es, g.n = n → ∀ i t, g.ul = some (i, t) → t.ass ≠ .waitStart2
  ua : (∀ k, o.enc k = true) → ∀ u, ua = some u → ∀ g ∈ s.es, g.n = u.n → ∀ i t, g.ul = some (i, t) → t.ass ≠ .schedResReq

section
variable {P : UlTbf → Prop}

theorem WF_true {b : Bool} {s : Ctx} (h : s.WF b P) : s.WF b (fun _ => True) := h.mono fun _ _ => trivial

theorem selectCtrl_none {s : Ctx} (h : s.WF false P) {o : Avail} {fn ts usf : Nat} {ua : Option Gre} {c : Option Cand}
    (hc : ∀ c', c = some c' → CandOk s c') {s2 : Ctx} (e : s.selectCtrl o fn ts usf ua c = .ok (s2, none)) :
    NoCtrl o fn ts usf ua c s s2 := by
  have ht := WF_true h
  have k := keeping_true ⟨fun _ _ => 0, 0⟩
  have noDl : ∀ {n id}, (∃ g ∈ s.es, g.n = n ∧ g.dlId = some id) → (∀ g, s.gre? n = some g → g.dl = none) → False := by
    rintro n id ⟨g, hg, rfl, hd⟩ hz
    rw [Gre.dlId, hz g (gre?_of_mem h.nd hg)] at hd
    cases hd
  unfold Ctx.selectCtrl at e
  split at e
  · rename_i n id
    obtain ⟨h1, h2, h3⟩ := orNext_none (congrArg Prod.snd (Res.ok.inj e))
    have e2 : s2 = _ := (congrArg Prod.fst (Res.ok.inj e)).symm
    have w1 := wf_dlAckMsg k ht o n ts
    obtain ⟨r1, r2⟩ := resReqMsg_none w1 h2
    obtain ⟨d1, d2⟩ := dlAckMsg_none ts usf h1
    rw [h3, r1] at e2
    subst e2
    exact ⟨d1, fun ho => (d2 ho).1, fun ho => (noDl (hc _ rfl) (d2 ho).2).elim, fun ho => by rw [(d2 ho).1] at r2; exact r2 ho⟩
  · rename_i n id
    split at e
    · rename_i r hr
      obtain ⟨h1, h2, h3⟩ := orNext_none (congrArg Prod.snd (Res.ok.inj e))
      have e2 : s2 = _ := (congrArg Prod.fst (Res.ok.inj e)).symm
      have w1 := wf_newUlMsg k (fun _ _ => trivial) ht (hc _ rfl) hr
      obtain ⟨r1, r2⟩ := resReqMsg_none w1 h2
      obtain ⟨d1, d2⟩ := (newUlMsg_cases h hr).2 h1
      rw [h3, r1] at e2
      subst e2
      exact ⟨d1 ts usf, fun ho => absurd ho d2, fun ho => absurd ho d2, fun ho => absurd ho d2⟩
    · cases e
    · cases e
  · have e1 := congrArg Prod.fst (Res.ok.inj e)
    have e2 := congrArg Prod.snd (Res.ok.inj e)
    simp only at e1 e2
    subst e1
    have ho : ¬ ∀ k, o.enc k = true := by
      intro ho
      rw [if_pos (ho _)] at e2
      cases e2
    exact ⟨OwnFrom.refl _ _ _, fun h => absurd h ho, fun h => absurd h ho, fun h => absurd h ho⟩
  · obtain ⟨h1, h2, h3⟩ := orNext_none (congrArg Prod.snd (Res.ok.inj e))
    have e2 : s2 = _ := (congrArg Prod.fst (Res.ok.inj e)).symm
    obtain ⟨r1, r2⟩ := resReqMsg_none h h2
    rw [h3, r1] at e2
    subst e2
    have ho : ¬ ∀ k, o.enc k = true := by
      intro ho
      simp only [ho, if_true] at h1
      cases h1
    exact ⟨OwnFrom.refl _ _ _, fun h => absurd h ho, fun h => absurd h ho, fun h => absurd h ho⟩
  · rename_i n id
    obtain ⟨h1, h2, h3⟩ := orNext_none (congrArg Prod.snd (Res.ok.inj e))
    have e2 : s2 = _ := (congrArg Prod.fst (Res.ok.inj e)).symm
    obtain ⟨d1, d2⟩ := ulAssMsg_none h h1
    rw [d1] at h2 h3
    obtain ⟨r1, r2⟩ := resReqMsg_none h h2
    rw [h3, r1] at e2
    subst e2
    exact ⟨OwnFrom.refl _ _ _, fun _ => rfl, fun ho c' e => by cases e; exact ⟨n, id, rfl, fun g hg hn i t hu => (d2 ho g hg hn i t hu).2⟩, r2⟩
  · rename_i n id
    obtain ⟨h1, h2, h3⟩ := orNext_none (congrArg Prod.snd (Res.ok.inj e))
    have e2 : s2 = _ := (congrArg Prod.fst (Res.ok.inj e)).symm
    obtain ⟨r1, r2⟩ := resReqMsg_none h h1
    rw [r1] at h2 h3
    obtain ⟨d1, d2⟩ := dlAckMsg_none ts usf h2
    rw [h3] at e2
    subst e2
    exact ⟨d1, fun ho => (d2 ho).1, fun ho => (noDl (hc _ rfl) (d2 ho).2).elim, r2⟩
  · obtain ⟨r1, r2⟩ := resReqMsg_none h (congrArg Prod.snd (Res.ok.inj e))
    have e2 : s2 = _ := (congrArg Prod.fst (Res.ok.inj e)).symm
    rw [r1] at e2
    subst e2
    exact ⟨OwnFrom.refl _ _ _, fun _ => rfl, fun _ c' e => (nomatch e), r2⟩

/-- In a timeslot at most one reservation has a frame number. -/
theorem node_unique {b : Bool} {s : Ctx} (h : s.WF b P) {ts : Nat} {x : PollNode} (hx : x ∈ s.polls.getD ts []) :
    s.node? ts x.fn = some x := by
  unfold Ctx.node?
  have hu := (getD_polls h.polls ts).2
  generalize s.polls.getD ts [] = l at hx hu
  induction l with
  | nil => cases hx
  | cons a l ih =>
    simp only [List.map_cons, List.nodup_cons, List.mem_map] at hu
    simp only [List.find?_cons]
    rcases List.mem_cons.1 hx with rfl | h1
    · simp
    · have : (a.fn == x.fn) = false := by
        simp only [beq_eq_false_iff_ne, ne_eq]
        exact fun e => hu.1 ⟨x, h1, e.symm⟩
      rw [this]
      exact ih h1 hu.2

/-- The candidate a reservation becomes. -/
theorem takePoll_of {b : Bool} {s s' : Ctx} (h : s.WF b P) {o : Avail} {ts : Nat} {x : PollNode} (hx : x ∈ s.polls.getD ts [])
    {c : Option Cand} (e : s.takePoll o ts x.fn = .ok (s', c)) :
    s.pollCand o x = .ok c ∧ s' = s.releaseNode ts x := by
  unfold Ctx.takePoll at e
  rw [node_unique h hx] at e
  simp only at e
  split at e
  · rename_i c' hc
    cases e
    exact ⟨hc, rfl⟩
  · cases e
  · cases e

theorem ulOwner_eq {b : Bool} {s : Ctx} (h : s.WF b P) {g : Gre} (hg : g ∈ s.es) {i : Nat} (hi : g.ulId = some i) :
    s.ulOwner i = some g := by
  cases e : s.ulOwner i with
  | none =>
    unfold Ctx.ulOwner at e
    rw [List.find?_eq_none] at e
    have := e g hg
    cases hu : g.ul with
    | none => rw [Gre.ulId, hu] at hi; cases hi
    | some y =>
      rw [Gre.ulId, hu] at hi
      simp only [hu] at this
      simp at hi this
      exact absurd hi this
  | some g' =>
    obtain ⟨h1, h2⟩ := ulOwner_mem e
    rw [h.only hg g' h1 (h.uu g' h1 g hg i (.inl h2) (.inl hi))]

theorem dlOwner_eq {b : Bool} {s : Ctx} (h : s.WF b P) {g : Gre} (hg : g ∈ s.es) {i : Nat} (hi : g.dlId = some i) :
    s.dlOwner i = some g := by
  cases e : s.dlOwner i with
  | none =>
    unfold Ctx.dlOwner at e
    rw [List.find?_eq_none] at e
    have := e g hg
    cases hu : g.dl with
    | none => rw [Gre.dlId, hu] at hi; cases hi
    | some y =>
      rw [Gre.dlId, hu] at hi
      simp only [hu] at this
      simp at hi this
      exact absurd hi this
  | some g' =>
    obtain ⟨h1, h2⟩ := dlOwner_mem e
    rw [h.only hg g' h1 (h.uu g' h1 g hg i (.inr h2) (.inr hi))]

/-- Without a control message none was due. -/
theorem no_ctrl_due {s s1 s2 : Ctx} (h : s.WF false P) {o : Avail} {fn ts usf : Nat} {c : Option Cand}
    (hp : s.takePoll o ts fn = .ok (s1, c))
    (e : s1.selectCtrl o fn ts usf (s1.ulAssCand fn ts usf) c = .ok (s2, none)) (ho : ∀ k, o.enc k = true) :
    ¬ CtrlDue s fn ts usf := by
  obtain ⟨w1, hes, -, hc⟩ := takePoll_wf h hp
  have nc := selectCtrl_none w1 hc e
  rintro ⟨n, hd | ⟨g, hg, rfl, i, t, hu, hs, hd⟩⟩
  · obtain ⟨x, hx, rfl, g, hg, rfl, hd⟩ := hd
    obtain ⟨hpc, -⟩ := takePoll_of h hx hp
    rcases hd with ⟨hr, i, t, ho', hu, hw⟩ | ⟨hr, i, t, ho', hu⟩ | ⟨hr, ho'⟩ | ⟨hr, d, ho', hu⟩
    · simp only [Ctx.pollCand, hr, ho', ulOwner_eq h hg (ulId_of hu), Res.ok.injEq] at hpc
      obtain ⟨n, id, e', hh⟩ := nc.cand ho _ hpc.symm
      cases e'
      exact hh g (hes ▸ hg) rfl i t hu hw
    · simp only [Ctx.pollCand, hr, ho', ulOwner_eq h hg (ulId_of hu), Res.ok.injEq] at hpc
      obtain ⟨n, id, e', -⟩ := nc.cand ho _ hpc.symm
      split at e' <;> cases e'
    · simp only [Ctx.pollCand, hr, ho', gre?_of_mem h.nd hg, Res.ok.injEq] at hpc
      obtain ⟨n, id, e', -⟩ := nc.cand ho _ hpc.symm
      cases e'
    · simp only [Ctx.pollCand, hr, ho', dlOwner_eq h hg (dlId_of hu), hu, Res.ok.injEq] at hpc
      obtain ⟨n, id, e', -⟩ := nc.cand ho _ hpc.symm
      split at e' <;> cases e'
  · have hr : g.assRts fn ts usf = true := by
      simp only [Gre.assRts, hu]
      exact assRts_iff.2 ⟨hs, hd⟩
    cases hua : s1.ulAssCand fn ts usf with
    | none =>
      unfold Ctx.ulAssCand at hua
      rw [List.find?_eq_none] at hua
      exact absurd hr (hua g (by rw [List.mem_reverse, hes]; exact hg))
    | some u =>
      have hum : u ∈ s1.es := by
        have := List.mem_of_find?_eq_some hua
        rwa [List.mem_reverse] at this
      have hur := List.find?_some hua
      cases hul : u.ul with
      | none => simp [Gre.assRts, hul] at hur
      | some y =>
        simp only [Gre.assRts, hul] at hur
        exact nc.ua ho u hua u hum rfl y.1 y.2 hul (assRts_iff.1 hur).1

end

/-- The block chosen in `serve`. -/
structure Chosen (s : Ctx) (o : Avail) (fn ts usf : Nat) (m : Option (Nat × UlBlk)) : Prop where
  data : ∀ n, m = some (n, .data) → DataDue s o ts usf n
  dummy : ∀ n, m = some (n, .dummy) → (∃ g ∈ s.es, g.n = n ∧ OwnsBlock g ts usf) ∧ ¬ DataDue s o ts usf n
  ctrlFirst : (∀ k, o.enc k = true) → CtrlDue s fn ts usf → ∃ n b, m = some (n, b) ∧ IsCtrl b
  used : (∀ k, o.enc k = true) → (∃ g ∈ s.es, OwnsBlock g ts usf) → m ≠ none

theorem chosen_ctrl {s : Ctx} {o : Avail} {fn ts usf : Nat} {m : Nat × UlBlk} (h : IsCtrl m.2) :
    Chosen s o fn ts usf (some m) := by
  obtain ⟨n, b⟩ := m
  refine ⟨fun n e => ?_, fun n e => ?_, fun _ _ => ⟨n, b, rfl, h⟩, fun _ _ => nofun⟩
  · cases e; exact absurd rfl h.1
  · cases e; exact absurd rfl h.2

/-- A data block is taken from the first transferring TBF the block belongs to. -/
theorem selectData_some {env : UlEnv} {s s' : Ctx} {o : Avail} {ts usf : Nat} {m : Nat × UlBlk} {ro : List CtxOut}
    (e : s.selectData env o ts usf = .ok (s', some m, ro)) :
    m.2 = .data ∧ ∃ g ∈ s.es, g.n = m.1 ∧ OwnsBlock g ts usf ∧ Transfers g ∧ o.block m.1 ≠ none := by
  unfold Ctx.selectData at e
  split at e
  · cases e
  · rename_i g hg
    have hd0 := List.find?_some hg
    have hd := dataRts_iff.1 hd0
    split at e
    · rename_i hb
      split at e
      · cases e
        exact ⟨rfl, g, List.mem_of_find?_eq_some hg, rfl, hd.1, hd.2, by rw [hb]; nofun⟩
      · cases e
      · cases e
    · cases e

theorem selectData_ro {env : UlEnv} {s s' : Ctx} {o : Avail} {ts usf : Nat} {m : Option (Nat × UlBlk)} {ro : List CtxOut}
    (e : s.selectData env o ts usf = .ok (s', m, ro)) : blocksIn ro = [] := by
  unfold Ctx.selectData at e
  split at e
  · cases e; rfl
  · split at e
    · split at e
      · cases e; exact blocksIn_rach _ _
      · cases e
      · cases e
    · cases e; rfl

/-- No data block: the first transferring TBF the block belongs to has none. -/
theorem selectData_none {env : UlEnv} {s s' : Ctx} {o : Avail} {ts usf : Nat} {ro : List CtxOut}
    (e : s.selectData env o ts usf = .ok (s', none, ro)) :
    s' = s ∧ ∀ g, s.es.find? (fun g => g.dataRts ts usf) = some g → o.block g.n = none := by
  unfold Ctx.selectData at e
  split at e
  · rename_i hf
    cases e
    exact ⟨rfl, fun g hg => by rw [hf] at hg; cases hg⟩
  · rename_i g hg
    have hd := List.find?_some hg
    split at e
    · split at e
      · cases e
      · cases e
      · cases e
    · rename_i hn
      cases e
      refine ⟨rfl, fun g' hg' => ?_⟩
      rw [hg] at hg'
      cases hg'
      cases hu : g.ul with
      | none => simp [Gre.dataRts, hu] at hd
      | some y =>
        cases ho : o.block g.n with
        | none => rfl
        | some f => exact (hn y.1 y.2 f hu ho).elim

theorem selectDummy_some {s : Ctx} {o : Avail} {ts usf : Nat} {m : Nat × UlBlk}
    (e : (s.selectDummy o ts usf).2 = some m) :
    ∃ g, s.es.find? (fun g => g.dummyRts ts usf) = some g ∧ m = (g.n, .dummy) := by
  unfold Ctx.selectDummy at e
  split at e
  · cases e
  · rename_i g hg
    split at e
    · cases e
    · split at e
      · cases e; exact ⟨g, hg, rfl⟩
      · cases e

theorem selectDummy_none {s : Ctx} {o : Avail} {ts usf : Nat} (e : (s.selectDummy o ts usf).2 = none)
    (ho : ∀ k, o.enc k = true) : ∀ g ∈ s.es, ¬ OwnsBlock g ts usf := by
  intro g hg hw
  unfold Ctx.selectDummy at e
  split at e
  · rename_i hf
    rw [List.find?_eq_none] at hf
    exact hf g hg (dummyRts_iff.2 hw)
  · rename_i g' hg'
    have hd := List.find?_some hg'
    split at e
    · rename_i hu
      simp [Gre.dummyRts, hu] at hd
    · rw [if_pos (ho _)] at e
      cases e

theorem ownsBlock_congr {g g' : Gre} {ts usf : Nat} (h : g.ul = g'.ul) : OwnsBlock g ts usf ↔ OwnsBlock g' ts usf := by
  unfold OwnsBlock; rw [h]

theorem transfers_congr {g g' : Gre} (h : g.ul = g'.ul) : Transfers g ↔ Transfers g' := by
  unfold Transfers; rw [h]

theorem select_chosen {P : UlTbf → Prop} {env : UlEnv} {s s1 s2 : Ctx} (h : s.WF false P) {o : Avail} {fn ts usf : Nat}
    {c : Option Cand} {m : Option (Nat × UlBlk)} {ro : List CtxOut} (hp : s.takePoll o ts fn = .ok (s1, c))
    (e : s1.select env o fn ts usf (s1.ulAssCand fn ts usf) c = .ok (s2, m, ro)) :
    Chosen s o fn ts usf m ∧ blocksIn ro = [] := by
  obtain ⟨w1, hes, -, hc⟩ := takePoll_wf h hp
  unfold Ctx.select at e
  split at e
  · rename_i hsc
    cases e
    exact ⟨chosen_ctrl (selectCtrl_ctrl w1 hsc), rfl⟩
  · rename_i s3 hsc
    have nc := selectCtrl_none w1 hc hsc
    split at e
    · rename_i hsd
      cases e
      rename_i m'
      obtain ⟨hm, g, hg, hn, ho, ht, hb⟩ := selectData_some hsd
      obtain ⟨g1, hg1, hn1, hu1⟩ := nc.own g hg ho
      rw [hes] at hg1
      obtain ⟨n, b⟩ := m'
      cases hm
      refine ⟨⟨fun n' e => ?_, fun n' e => (nomatch e), fun hk hd => ?_, fun _ _ => nofun⟩, selectData_ro hsd⟩
      · cases e
        exact ⟨g1, hg1, hn1.trans hn, (ownsBlock_congr hu1).2 ho, (transfers_congr hu1).2 ht, hb⟩
      · exact absurd hd (no_ctrl_due h hp hsc hk)
    · rename_i hsd
      cases e
      obtain ⟨rfl, hno⟩ := selectData_none hsd
      refine ⟨⟨fun n' e => ?_, fun n' e => ?_, fun hk hd => absurd hd (no_ctrl_due h hp hsc hk), fun hk hw => ?_⟩,
        selectData_ro hsd⟩
      · obtain ⟨g, -, hm⟩ := selectDummy_some e
        cases hm
      · obtain ⟨g, hg, hm⟩ := selectDummy_some e
        cases hm
        have hgm := List.mem_of_find?_eq_some hg
        have hgo0 := List.find?_some hg
        have hgo := dummyRts_iff.1 hgo0
        obtain ⟨g1, hg1, hn1, hu1⟩ := nc.own g hgm hgo
        rw [hes] at hg1
        refine ⟨⟨g1, hg1, hn1, (ownsBlock_congr hu1).2 hgo⟩, ?_⟩
        rintro ⟨g', hg', hn', hw', ht', hb'⟩
        have : g' = g1 := h.only hg1 g' hg' (hn'.trans hn1.symm)
        subst this
        have hd : g.dataRts ts usf = true := dataRts_iff.2 ⟨hgo, (transfers_congr hu1).1 ht'⟩
        have hf := find?_imp (q := fun g => g.dataRts ts usf) (fun x hx => dummyRts_iff.2 (dataRts_iff.1 hx).1) hg hd
        exact hb' (hno g hf)
      · intro hn
        have := nc.same hk
        subst this
        obtain ⟨g, hg, hw⟩ := hw
        exact selectDummy_none hn hk g (hes ▸ hg) hw
    · cases e
    · cases e
  · cases e
  · cases e

theorem mem_blockOut {ts fn n : Nat} {b : UlBlk} {ro : List CtxOut} {m : Option (Nat × UlBlk)} (hr : blocksIn ro = []) :
    (ts, fn, n, b) ∈ blocksIn (ro ++ blockOut ts fn m) ↔ m = some (n, b) := by
  rw [blocksIn_append, hr, List.nil_append, blocksIn_blockOut]
  cases m with
  | none => simp
  | some m =>
    obtain ⟨n', b'⟩ := m
    simp only [List.mem_singleton, Prod.mk.injEq, true_and, Option.some.injEq]
    exact ⟨fun h => ⟨h.1.symm, h.2.symm⟩, fun h => ⟨h.1.symm, h.2.symm⟩⟩

theorem serve_good {P : UlTbf → Prop} {env : UlEnv} {s s' : Ctx} (h : s.WF false P) {o : Avail} {fn ts usf : Nat}
    {outs : List CtxOut} (e : s.serve env o fn ts usf = .ok (s', outs)) : GoodRts s o fn ts usf outs := by
  unfold Ctx.serve at e
  split at e
  · rename_i s1 c hp
    split at e
    · rename_i s2 m ro hs
      cases e
      obtain ⟨hc, hr⟩ := select_chosen h hp hs
      have hm := fun n b => mem_blockOut (ts := ts) (fn := fn) (n := n) (b := b) (m := m) hr
      refine ⟨?_, fun n hx => hc.data n ((hm _ _).1 hx), fun n hx => hc.dummy n ((hm _ _).1 hx), fun hk hd => ?_, fun hk hw hx => ?_⟩
      · rw [blocksIn_append, hr, List.nil_append, blocksIn_blockOut]
        cases m with
        | none => exact .inl rfl
        | some m => exact .inr ⟨m.1, m.2, rfl⟩
      · obtain ⟨n, b, e, hb⟩ := hc.ctrlFirst hk hd
        exact ⟨n, b, (hm n b).2 e, hb⟩
      · cases m with
        | none => exact hc.used hk hw rfl
        | some m =>
          have := (hm m.1 m.2).2 rfl
          rw [hx] at this
          cases this
    · cases e
    · cases e
  · cases e
  · cases e

/-- If the block belongs to one TBF only, data come before the dummy block. -/
theorem dataFirst_of_one {s : Ctx} {o : Avail} {fn ts usf : Nat} {outs : List CtxOut} (h : GoodRts s o fn ts usf outs)
    (h1 : OneOwner s ts usf) : DataFirst s o fn ts usf outs := by
  intro n hn m hd
  obtain ⟨⟨g, hg, hgn, hgo⟩, hno⟩ := h.dummy n hn
  obtain ⟨g', hg', hn', ho', r⟩ := hd
  have := h1 g hg g' hg' hgo ho'
  subst this
  exact hno ⟨g, hg, hgn, ho', by rw [← hgn, hn']; exact r⟩

theorem evIn_true (s : Ctx) (e : CtxEv) : EvIn (fun _ _ => True) (fun _ => True) s e := by
  cases e
  case rts => exact ⟨fun _ => trivial, fun _ _ => trivial, fun _ _ _ => trivial, fun _ => trivial⟩
  all_goals simp [EvIn]

/-- Every reachable state of the context satisfies the invariant. -/
theorem run_wf {env : UlEnv} (evs : List CtxEv) : ∀ {s s' : Ctx} {outs : List CtxOut}, s.WF false (fun _ => True) →
    s.run env evs = .ok (s', outs) → s'.WF false (fun _ => True) := by
  induction evs with
  | nil => intro s s' outs h e; cases e; exact h
  | cons v evs ih =>
    intro s s' outs h e
    simp only [Ctx.run] at e
    split at e
    · rename_i s1 o1 hs
      split at e
      · rename_i hr
        cases e
        exact ih (step_wf (keeping_true env) h (evIn_true s v) nofun hs) hr
      · cases e
      · cases e
    · cases e
    · cases e

end Verif.Rlc
