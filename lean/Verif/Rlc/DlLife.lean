import Verif.Rlc.CtxKeeps
import Verif.Spec.DlLife

/-!
# Lemmas: what each part of an event does to the downlink TBFs
-/
namespace Verif.Rlc
open Verif Verif.Spec

/-- The downlink TBFs stay as they are. -/
def SameDl (s s' : Ctx) : Prop := s.tbfs ≤ s'.tbfs ∧ ∀ m, dlTbf s' m = dlTbf s m

theorem SameDl.refl (s : Ctx) : SameDl s s := ⟨Nat.le_refl _, fun _ => rfl⟩
theorem SameDl.trans {a b c : Ctx} (h : SameDl a b) (h' : SameDl b c) : SameDl a c :=
  ⟨Nat.le_trans h.1 h'.1, fun m => (h'.2 m).trans (h.2 m)⟩

theorem gre?_setGre (s : Ctx) (n : Nat) (f : Gre → Gre) (hn : ∀ g, (f g).n = g.n) (m : Nat) :
    (s.setGre n f).gre? m = (s.gre? m).map fun g => if m = n then f g else g := by
  unfold Ctx.gre? Ctx.setGre
  induction s.es with
  | nil => rfl
  | cons g l ih =>
    simp only [List.map_cons]
    have hg : (if g.n = n then f g else g).n = g.n := by
      split
      · exact hn g
      · rfl
    by_cases e : g.n = m
    · rw [List.find?_cons_of_pos (by simpa [hg] using e), List.find?_cons_of_pos (by simpa using e)]
      subst e
      rfl
    · rw [List.find?_cons_of_neg (by simpa [hg] using e), List.find?_cons_of_neg (by simpa using e)]
      exact ih

theorem dlTbf_gre? (s : Ctx) (m : Nat) : dlTbf s m = (s.gre? m).bind Gre.dl := rfl

theorem dlTbf_set (s : Ctx) (n : Nat) (f : Gre → Gre) (hn : ∀ g, (f g).n = g.n) (m : Nat) :
    dlTbf (s.setGre n f) m = if m = n then (s.gre? n).bind fun g => (f g).dl else dlTbf s m := by
  rw [dlTbf_gre?, gre?_setGre s n f hn, dlTbf_gre?]
  split
  · rename_i e; subst e; cases s.gre? m <;> rfl
  · cases s.gre? m <;> rfl

theorem same_set {s : Ctx} (n : Nat) (f : Gre → Gre) (hn : ∀ g, (f g).n = g.n) (hd : ∀ g, (f g).dl = g.dl) :
    SameDl s (s.setGre n f) := by
  refine ⟨Nat.le_refl _, fun m => ?_⟩
  rw [dlTbf_set s n f hn]
  split
  · rename_i e; subst e
    rw [dlTbf_gre?]
    cases s.gre? m with
    | none => rfl
    | some g => exact hd g
  · rfl

/-- Reservations and serial numbers do not matter. -/
theorem same_es {s s' : Ctx} (h : s'.es = s.es) (ht : s.tbfs ≤ s'.tbfs) : SameDl s s' :=
  ⟨ht, fun m => by unfold dlTbf; rw [h]⟩

theorem ulFreed_dl (g : Gre) (id : Nat) : (g.ulFreed id).dl = g.dl := by
  unfold Gre.ulFreed
  split
  · split <;> rfl
  · rfl

theorem same_freeUl (s : Ctx) (n id : Nat) : SameDl s (s.freeUl n id) :=
  (same_set n _ (fun g => ulFreed_n g id) (fun g => ulFreed_dl g id)).trans (same_es rfl (Nat.le_refl _))

theorem same_putUl (s : Ctx) (n id : Nat) (r : Option UlTbf) : SameDl s (s.putUl n id r) := by
  cases r with
  | none => exact same_freeUl s n id
  | some t => exact same_set n _ (fun _ => rfl) (fun _ => rfl)

theorem same_reserve {s s' : Ctx} {ts fn : Nat} {r : PollReason} {o : PollOwner} (e : s.reserve ts fn r o = .ok s') :
    SameDl s s' := same_es (reserve_es e).1 (Nat.le_of_eq (reserve_es e).2.2.symm)

theorem same_reserveAll {r : PollReason} {o : PollOwner} (outs : List UlOut) :
    ∀ {s s' : Ctx}, s.reserveAll r o outs = .ok s' → SameDl s s' := by
  induction outs with
  | nil => intro s s' e; cases e; exact .refl s
  | cons a outs ih =>
    intro s s' e
    cases a with
    | poll fn tn =>
      simp only [Ctx.reserveAll] at e
      split at e
      · rename_i s1 h1; exact (same_reserve h1).trans (ih e)
      · cases e
      · cases e
    | rach => exact ih e
    | resReq => exact ih e
    | ctrlAck => exact ih e
    | data => exact ih e
    | dummy => exact ih e

theorem same_ulEvent {s s' : Ctx} {n id : Nat} {r : PollReason} {x : UlR} {o : List CtxOut}
    (e : s.ulEvent n id r x = .ok (s', o)) : SameDl s s' := by
  unfold Ctx.ulEvent at e
  split at e
  · split at e
    · rename_i h1; cases e; exact (same_putUl s n id _).trans (same_reserveAll _ h1)
    · cases e
    · cases e
  · cases e
  · cases e

/-! ## Beginning -/

/-- Downlink TBFs stay or new ones begin. -/
def TickDl (s s' : Ctx) : Prop :=
  s.tbfs ≤ s'.tbfs ∧ ∀ m, dlTbf s' m = dlTbf s m ∨
    ∃ id a, s.tbfs ≤ id ∧ dlTbf s' m = some ⟨id, .flow, a, true, false⟩

theorem SameDl.tick {s s' : Ctx} (h : SameDl s s') : TickDl s s' := ⟨h.1, fun m => .inl (h.2 m)⟩

theorem TickDl.trans {a b c : Ctx} (h : TickDl a b) (h' : TickDl b c) : TickDl a c := by
  refine ⟨Nat.le_trans h.1 h'.1, fun m => ?_⟩
  rcases h'.2 m with e | ⟨id, al, hl, e⟩
  · rw [e]; exact h.2 m
  · exact .inr ⟨id, al, Nat.le_trans h.1 hl, e⟩

theorem tick_compl (s : Ctx) (g : Gre) : TickDl s (s.complDl g).1 := by
  refine ⟨Nat.le_succ _, fun m => ?_⟩
  have e := dlTbf_set s g.n (fun g => { g with dl := some ⟨s.tbfs, .flow, g.ass.alloc, true, false⟩, ass := .idle })
    (fun _ => rfl) m
  have e' : dlTbf (s.complDl g).1 m = dlTbf (s.setGre g.n fun g =>
    { g with dl := some ⟨s.tbfs, .flow, g.ass.alloc, true, false⟩, ass := .idle }) m := rfl
  rw [e', e]
  split
  · rename_i hm
    cases hg : s.gre? g.n with
    | none => left; rw [dlTbf_gre?, hm, hg]; rfl
    | some g0 => exact .inr ⟨s.tbfs, _, Nat.le_refl _, rfl⟩
  · exact .inl rfl

theorem tick_all (fn ts : Nat) : ∀ (ns : List Nat) {s s' : Ctx} {o : List CtxOut}, s.tickAll fn ts ns = .ok (s', o) →
    TickDl s s' := by
  intro ns
  induction ns with
  | nil => intro s s' o e; cases e; exact (SameDl.refl s).tick
  | cons n ns ih =>
    intro s s' o e
    simp only [Ctx.tickAll] at e
    split at e
    · exact ih e
    · rename_i g hg
      split at e
      · rename_i s1 h1
        have k1 : SameDl s s1 := by
          unfold Ctx.tickUl at h1
          split at h1
          · cases h1; exact .refl s
          · split at h1
            · cases h1; exact same_putUl _ _ _ _
            · cases h1
            · cases h1
        have k2 : TickDl s1 (s1.tickDl fn ts g).1 := by
          unfold Ctx.tickDl
          split
          · exact tick_compl s1 g
          · exact (SameDl.refl s1).tick
        split at e
        · rename_i s2 o2 h2
          cases e
          exact (k1.tick.trans k2).trans (ih h2)
        · cases e
        · cases e
      · cases e
      · cases e

theorem tick_noBlock (fn ts : Nat) : ∀ (ns : List Nat) {s s' : Ctx} {o : List CtxOut}, s.tickAll fn ts ns = .ok (s', o) →
    ∀ ts' fn' n b, CtxOut.block ts' fn' n b ∉ o := by
  intro ns
  induction ns with
  | nil => intro s s' o e; cases e; intros; simp
  | cons n ns ih =>
    intro s s' o e
    simp only [Ctx.tickAll] at e
    split at e
    · exact ih e
    · rename_i g hg
      split at e
      · rename_i s1 h1
        split at e
        · rename_i s2 o2 h2
          cases e
          intro ts' fn' n b hm
          rcases List.mem_append.1 hm with hm | hm
          · unfold Ctx.tickDl at hm
            split at hm
            · simp [Ctx.complDl] at hm
            · cases hm
          · exact ih h2 _ _ _ _ hm
        · cases e
        · cases e
      · cases e
      · cases e

/-! ## Messages sent -/

/-- What sending a message does: a PACKET DOWNLINK ACK/NACK is of a TBF of the entity and says whether all data was received;
then the timers are changed, and nothing else ever. -/
def SentDl (s s' : Ctx) (m : Option (Nat × UlBlk)) : Prop :=
  s.tbfs ≤ s'.tbfs ∧
  ((SameDl s s' ∧ ∀ n f c, m ≠ some (n, .dlAck f c)) ∨
   ∃ n c d, m = some (n, .dlAck (d.st = .finished) c) ∧ dlTbf s n = some d ∧ dlTbf s' n = some d.acked ∧
     ∀ k, k ≠ n → dlTbf s' k = dlTbf s k)

theorem SameDl.sent {s s1 s2 : Ctx} {m : Option (Nat × UlBlk)} (h : SameDl s s1) (h' : SentDl s1 s2 m) : SentDl s s2 m := by
  refine ⟨Nat.le_trans h.1 h'.1, ?_⟩
  rcases h'.2 with ⟨a, b⟩ | ⟨n, c, d, a, b, e, f⟩
  · exact .inl ⟨h.trans a, b⟩
  · exact .inr ⟨n, c, d, a, by rw [← h.2]; exact b, e, fun k hk => (f k hk).trans (h.2 k)⟩

theorem SentDl.after {s s1 s2 : Ctx} {m : Option (Nat × UlBlk)} (h : SentDl s s1 m) (h' : SameDl s1 s2) : SentDl s s2 m := by
  refine ⟨Nat.le_trans h.1 h'.1, ?_⟩
  rcases h.2 with ⟨a, b⟩ | ⟨n, c, d, a, b, e, f⟩
  · exact .inl ⟨a.trans h', b⟩
  · exact .inr ⟨n, c, d, a, b, by rw [h'.2]; exact e, fun k hk => (h'.2 k).trans (f k hk)⟩

theorem SentDl.none {s s' : Ctx} (h : SentDl s s' none) : SameDl s s' := by
  rcases h.2 with ⟨a, -⟩ | ⟨n, c, d, a, -⟩
  · exact a
  · cases a

theorem sent_other {s s' : Ctx} {m : Option (Nat × UlBlk)} (h : SameDl s s') (hm : ∀ n f c, m ≠ some (n, .dlAck f c)) :
    SentDl s s' m := ⟨h.1, .inl ⟨h, hm⟩⟩

theorem sent_ulAss (s : Ctx) (o : Avail) (n : Nat) : SentDl s (s.ulAssMsg o n).1 (s.ulAssMsg o n).2 := by
  unfold Ctx.ulAssMsg
  split
  · exact sent_other (.refl s) (by intros; simp)
  · split
    · exact sent_other (.refl s) (by intros; simp)
    · refine sent_other (same_putUl _ _ _ _) ?_
      intro n' f c
      dsimp only
      unfold msgOf
      split <;> simp

theorem sent_resReq (s : Ctx) (o : Avail) (ua : Option Gre) : SentDl s (s.resReqMsg o ua).1 (s.resReqMsg o ua).2 := by
  cases ua with
  | none => exact sent_other (.refl s) (by intros; simp [Ctx.resReqMsg])
  | some g => exact sent_ulAss s o g.n

theorem sent_dlAck (s : Ctx) (o : Avail) (n ts : Nat) : SentDl s (s.dlAckMsg o n ts).1 (s.dlAckMsg o n ts).2 := by
  unfold Ctx.dlAckMsg
  split
  · exact sent_other (.refl s) (by intros; simp)
  · rename_i g hg
    split
    · exact sent_other (.refl s) (by intros; simp)
    · rename_i d hd
      have hs : dlTbf s n = some d := by rw [dlTbf_gre?, hg]; exact hd
      have k : SameDl s (if g.wantsUl o then { s.putUl n s.tbfs (UlStart.fromDl ts).run.1 with tbfs := s.tbfs + 1 } else s) := by
        split
        · exact (same_putUl s n s.tbfs _).trans (same_es rfl (by
            have := (same_putUl s n s.tbfs (UlStart.fromDl ts).run.1).1
            cases (UlStart.fromDl ts).run.1 <;> exact Nat.le_succ _))
        · exact .refl s
      dsimp only
      generalize (if g.wantsUl o then { s.putUl n s.tbfs (UlStart.fromDl ts).run.1 with tbfs := s.tbfs + 1 } else s) = s1 at k ⊢
      split
      · refine k.sent ⟨Nat.le_refl _, .inr ⟨n, g.wantsUl o, d, rfl, ?_, ?_, fun k hk => ?_⟩⟩
        · rw [k.2, hs]
        · refine (dlTbf_set s1 n (fun g => { g with dl := some d.acked }) (fun _ => rfl) n).trans ?_
          rw [if_pos rfl]
          have h1 : dlTbf s1 n = some d := by rw [k.2, hs]
          rw [dlTbf_gre?] at h1
          cases hg1 : s1.gre? n with
          | none => rw [hg1] at h1; cases h1
          | some g1 => rfl
        · exact (dlTbf_set s1 n (fun g => { g with dl := some d.acked }) (fun _ => rfl) k).trans (if_neg hk)
      · exact sent_other k (by intros; simp)

theorem sent_orNext {s : Ctx} {r : Ctx × Option (Nat × UlBlk)} {f : Ctx → Ctx × Option (Nat × UlBlk)}
    (h : SentDl s r.1 r.2) (h' : ∀ s1, SentDl s1 (f s1).1 (f s1).2) : SentDl s (orNext r f).1 (orNext r f).2 := by
  obtain ⟨s1, m⟩ := r
  cases m with
  | some m => exact h
  | none => exact h.none.sent (h' s1)

theorem sent_newUl {s : Ctx} {o : Avail} {n id fn ts usf : Nat} {s' : Ctx} {m : Option (Nat × UlBlk)}
    (e : s.newUlMsg o n id fn ts usf = .ok (s', m)) : SentDl s s' m := by
  unfold Ctx.newUlMsg at e
  split at e
  · cases e
  · split at e
    · cases e
    · rename_i old _
      dsimp only at e
      split at e
      · injection e with e
        have k : SameDl s { s.putUl n s.tbfs (UlStart.fromReleasing old.cur).run.1 with
            tbfs := s.tbfs + 1, polls := dropTbf id s.polls } :=
          (same_putUl s n s.tbfs _).trans (same_es rfl (by
            cases (UlStart.fromReleasing old.cur).run.1 <;> exact Nat.le_succ _))
        have := k.sent (sent_ulAss _ o n)
        rw [e] at this
        exact this
      · cases e

theorem sent_ctrl {s : Ctx} {o : Avail} {fn ts usf : Nat} {ua : Option Gre} {c : Option Cand} {s' : Ctx}
    {m : Option (Nat × UlBlk)} (e : s.selectCtrl o fn ts usf ua c = .ok (s', m)) : SentDl s s' m := by
  have rr := fun s1 => sent_resReq s1 o ua
  have of : ∀ {r : Ctx × Option (Nat × UlBlk)}, SentDl s r.1 r.2 → Res.ok r = Res.ok (s', m) → SentDl s s' m := by
    intro r h e; cases e; exact h
  have ack : ∀ n, SentDl s s (if o.enc .ctrlAck then some (n, UlBlk.ctrlAck) else none) := by
    intro n
    refine sent_other (.refl s) ?_
    intro n' f c
    split <;> simp
  unfold Ctx.selectCtrl at e
  split at e
  · exact of (sent_orNext (sent_dlAck s o _ ts) rr) e
  · split at e
    · rename_i r hr
      exact of (sent_orNext (r := r) (sent_newUl hr) rr) e
    · cases e
    · cases e
  · exact of (r := (s, _)) (ack _) e
  · exact of (sent_orNext (r := (s, _)) (ack _) rr) e
  · exact of (sent_orNext (sent_ulAss s o _) rr) e
  · exact of (sent_orNext (sent_resReq s o ua) fun s1 => sent_dlAck s1 o _ ts) e
  · exact of (sent_resReq s o ua) e

theorem sent_data {env : UlEnv} {s : Ctx} {o : Avail} {ts usf : Nat} {s' : Ctx} {m : Option (Nat × UlBlk)} {ro : List CtxOut}
    (e : s.selectData env o ts usf = .ok (s', m, ro)) : SentDl s s' m ∧ ∀ n b, CtxOut.block ts' fn' n b ∉ ro := by
  unfold Ctx.selectData at e
  split at e
  · cases e; exact ⟨sent_other (.refl s) (by intros; simp), by intros; simp⟩
  · split at e
    · split at e
      · cases e
        refine ⟨sent_other (same_putUl _ _ _ _) (by intros; simp), ?_⟩
        intro n b hm
        unfold rachOuts at hm
        obtain ⟨x, -, hx⟩ := List.mem_filterMap.1 hm
        split at hx <;> simp at hx
      · cases e
      · cases e
    · cases e; exact ⟨sent_other (.refl s) (by intros; simp), by intros; simp⟩

theorem sent_dummy (s : Ctx) (o : Avail) (ts usf : Nat) : SentDl s (s.selectDummy o ts usf).1 (s.selectDummy o ts usf).2 := by
  unfold Ctx.selectDummy
  split
  · exact sent_other (.refl s) (by intros; simp)
  · split
    · exact sent_other (.refl s) (by intros; simp)
    · split
      · exact sent_other (same_putUl _ _ _ _) (by intros; simp)
      · exact sent_other (.refl s) (by intros; simp)

theorem sent_select {env : UlEnv} {s : Ctx} {o : Avail} {fn ts usf : Nat} {ua : Option Gre} {c : Option Cand} {s' : Ctx}
    {m : Option (Nat × UlBlk)} {ro : List CtxOut} (e : s.select env o fn ts usf ua c = .ok (s', m, ro)) :
    SentDl s s' m ∧ ∀ ts' fn' n b, CtxOut.block ts' fn' n b ∉ ro := by
  unfold Ctx.select at e
  split at e
  · rename_i h1; cases e; exact ⟨sent_ctrl h1, by intros; simp⟩
  · rename_i s1 h1
    split at e
    · rename_i s2 m2 ro2 h2
      cases e
      exact ⟨(sent_ctrl h1).none.sent (sent_data (ts' := ts) (fn' := fn) h2).1, fun ts' fn' => (sent_data h2).2⟩
    · rename_i s2 ro2 h2
      cases e
      exact ⟨(sent_ctrl h1).none.sent ((sent_data (ts' := ts) (fn' := fn) h2).1.none.sent (sent_dummy s2 o ts usf)),
        fun ts' fn' => (sent_data h2).2⟩
    · cases e
    · cases e
  · cases e
  · cases e

theorem sent_serve {env : UlEnv} {s : Ctx} {o : Avail} {fn ts usf : Nat} {s' : Ctx} {outs : List CtxOut}
    (e : s.serve env o fn ts usf = .ok (s', outs)) :
    ∃ m, SentDl s s' m ∧ ∀ ts' fn' n b, CtxOut.block ts' fn' n b ∈ outs ↔ (ts' = ts ∧ fn' = fn ∧ m = some (n, b)) := by
  unfold Ctx.serve at e
  split at e
  · rename_i s1 c h1
    have k1 : SameDl s s1 := by
      unfold Ctx.takePoll at h1
      split at h1
      · cases h1; exact .refl s
      · split at h1
        · cases h1; exact same_es rfl (Nat.le_refl _)
        · cases h1
        · cases h1
    split at e
    · rename_i s2 m ro h2
      cases e
      obtain ⟨k2, no⟩ := sent_select h2
      refine ⟨m, (k1.sent k2).after (same_es rfl (Nat.le_refl _)), fun ts' fn' n b => ?_⟩
      rw [List.mem_append]
      constructor
      · rintro (h | h)
        · exact absurd h (no _ _ _ _)
        · unfold blockOut at h
          split at h
          · simp only [List.mem_singleton, CtxOut.block.injEq] at h
            obtain ⟨rfl, rfl, rfl, rfl⟩ := h
            exact ⟨rfl, rfl, rfl⟩
          · cases h
      · rintro ⟨rfl, rfl, rfl⟩
        exact .inr (List.mem_singleton.2 rfl)
    · cases e
    · cases e
  · cases e
  · cases e

/-! ## All events -/

theorem dlChange_of_eq {e : CtxEv} {outs : List CtxOut} {n tbfs : Nat} {a b : Option DlLink} (h : b = a) :
    DlChange e outs n tbfs a b := by subst h; exact .same _

theorem change_tick {e : CtxEv} {outs : List CtxOut} {s s' : Ctx} (h : TickDl s s') (hb : CanBegin e) (n : Nat) :
    DlChange e outs n s.tbfs (dlTbf s n) (dlTbf s' n) := by
  rcases h.2 n with h | ⟨id, a, hl, h⟩
  · exact dlChange_of_eq h
  · rw [h]; exact .begins _ id a hb hl

theorem tick_dlAssign {env : UlEnv} {s s' : Ctx} {g : Gre} {m : DlAssMsg} {fn : Nat} {o : List CtxOut}
    (e : s.dlAssign env g m fn = .ok (s', o)) : TickDl s s' := by
  unfold Ctx.dlAssign at e
  split at e
  · split at e
    · rename_i a _ _
      cases e
      have k : SameDl s (s.setGre g.n fun g => { g with ass := { a with waiting := true } }) :=
        same_set g.n _ (fun _ => rfl) (fun _ => rfl)
      exact k.tick
    · rename_i a _ _
      injection e with e
      have : (Ctx.complDl (s.setGre g.n fun g => { g with ass := a }) { g with ass := a }).1 = s' := by rw [e]
      rw [← this]
      have k : SameDl s (s.setGre g.n fun g => { g with ass := a }) := same_set g.n _ (fun _ => rfl) (fun _ => rfl)
      exact k.tick.trans (tick_compl _ _)
  · cases e
  · cases e

theorem dlTbf_freeDl {s : Ctx} {n : Nat} {d : DlLink} (h : dlTbf s n = some d) (m : Nat) :
    dlTbf (s.freeDl n d.id) m = if m = n then none else dlTbf s m := by
  have e : dlTbf (s.freeDl n d.id) m = dlTbf (s.setGre n (·.dlFreed d.id)) m := rfl
  rw [e, dlTbf_set s n _ (fun g => dlFreed_n g d.id)]
  split
  · rw [dlTbf_gre?] at h
    cases hg : s.gre? n with
    | none => rfl
    | some g =>
      rw [hg] at h
      have hd : g.dl = some d := h
      show (g.dlFreed d.id).dl = none
      unfold Gre.dlFreed
      rw [hd]
      simp
  · rfl

theorem change_dlTimer {s : Ctx} (k : Bool) (n : Nat) : ∀ m,
    DlChange (if k then .t3192 n else .t3190 n) [] m s.tbfs (dlTbf s m) (dlTbf (s.dlTimer n k) m) := by
  intro m
  unfold Ctx.dlTimer
  cases hg : s.gre? n with
  | none => exact .same _
  | some g =>
    dsimp only
    cases hd : g.dl with
    | none => exact .same _
    | some d =>
      dsimp only
      have hs : dlTbf s n = some d := by rw [dlTbf_gre?, hg]; exact hd
      by_cases hk : (if k then d.t3192 else d.t3190) = true
      · rw [if_pos hk, dlTbf_freeDl hs]
        by_cases e : m = n
        · subst e
          rw [if_pos rfl, hs]
          cases k
          · exact .t3190 d rfl hk
          · exact .t3192 d rfl hk
        · rw [if_neg e]; exact .same _
      · rw [if_neg hk]; exact .same _

theorem same_startUl (s : Ctx) (o : Avail) (n : Nat) : SameDl s (s.startUl o n).1 := by
  unfold Ctx.startUl
  split
  · exact .refl s
  · split
    · have k1 : SameDl s { s.setGre n fun g => { g with ul := some (s.tbfs, UlTbf.fresh) } with tbfs := s.tbfs + 1 } :=
        (same_set n (fun g => { g with ul := some (s.tbfs, UlTbf.fresh) }) (fun _ => rfl) (fun _ => rfl)).trans
          (same_es rfl (Nat.le_succ _))
      exact k1.trans (same_putUl _ _ _ _)
    · exact .refl s

theorem same_addGre (s : Ctx) (tlli ptmsi : Nat) (imsi : List Nat) : SameDl s (s.addGre tlli ptmsi imsi) := by
  refine ⟨Nat.le_refl _, fun m => ?_⟩
  unfold dlTbf Ctx.addGre
  simp only [List.find?_append]
  cases s.es.find? fun g => g.n == m with
  | some g => rfl
  | none =>
    simp only [Option.none_or, Option.bind_none, List.find?_cons, List.find?_nil]
    split <;> rfl

theorem dlTbf_freeGre (s : Ctx) (g : Gre) (m : Nat) : dlTbf (s.freeGre g) m = if m = g.n then none else dlTbf s m := by
  unfold dlTbf Ctx.freeGre
  simp only [List.find?_filter]
  split
  · rename_i e
    subst e
    rw [List.find?_eq_none.2]
    · rfl
    · intro x _
      simp only [decide_eq_true_eq, beq_iff_eq, not_and]
      exact fun h => h
  · rename_i e
    congr 2
    funext x
    by_cases hx : x.n = m
    · simp [hx, e]
    · simp [hx]

theorem same_ccch (o : Avail) : ∀ (ns : List Nat) (s : Ctx), SameDl s (Ctx.ccchReady o ns s).1 := by
  intro ns
  induction ns with
  | nil => exact fun s => .refl s
  | cons n ns ih => exact fun s => (same_startUl s o n).trans (ih _)

theorem SameDl.change {e : CtxEv} {outs : List CtxOut} {s s' : Ctx} (h : SameDl s s') (n : Nat) :
    DlChange e outs n s.tbfs (dlTbf s n) (dlTbf s' n) := dlChange_of_eq (h.2 n)

theorem rts_dl {env : UlEnv} {s s' : Ctx} {o : Avail} {fn ts usf : Nat} {outs : List CtxOut}
    (e : s.rts env o fn ts usf = .ok (s', outs)) :
    ∃ s1 m, TickDl s s1 ∧ SentDl s1 s' m ∧ (∀ n b, m = some (n, b) → CtxOut.block ts fn n b ∈ outs) ∧
      ∀ ts' fn' n b, CtxOut.block ts' fn' n b ∈ outs → m = some (n, b) := by
  unfold Ctx.rts at e
  split at e
  · cases e
  · split at e
    · rename_i s1 o1 h1
      split at e
      · rename_i s2 o2 h2
        cases e
        obtain ⟨m, k, ho⟩ := sent_serve h2
        refine ⟨s1, m, tick_all fn ts _ h1, k, fun n b hm => List.mem_append.2 (.inr ((ho _ _ _ _).2 ⟨rfl, rfl, hm⟩)), ?_⟩
        intro ts' fn' n b hm
        rcases List.mem_append.1 hm with hm | hm
        · exact absurd hm (tick_noBlock fn ts _ h1 _ _ _ _)
        · exact ((ho _ _ _ _).1 hm).2.2
      · cases e
      · cases e
    · cases e
    · cases e

theorem step_dl {env : UlEnv} {s s' : Ctx} (w : s.W) {e : CtxEv} {outs : List CtxOut} (h : s.step env e = .ok (s', outs))
    (n : Nat) : DlChange e outs n s.tbfs (dlTbf s n) (dlTbf s' n) := by
  cases e with
  | rts o fn ts usf =>
    obtain ⟨s1, m, k1, k2, ho, -⟩ := rts_dl h
    rcases k2.2 with ⟨k, -⟩ | ⟨n', c, d, rfl, h1, h2, h3⟩
    · rw [k.2]; exact change_tick k1 (by exact True.intro) n
    · by_cases hn : n = n'
      · subst hn
        rw [h2]
        by_cases hf : d.st = .finished
        · rcases k1.2 n with hk | ⟨id, a, -, hk⟩
          · rw [← hk, h1, show d.acked = { d with t3190 := false, t3192 := true } by unfold DlLink.acked; rw [hf]]
            refine .acked d o fn ts usf c rfl hf ?_
            have := ho n _ rfl
            rw [show decide (d.st = .finished) = true by simp [hf]] at this
            exact this
          · rw [h1] at hk
            injection hk with hk
            rw [hk] at hf
            cases hf
        · rw [show d.acked = d by
            unfold DlLink.acked
            split
            · rename_i hc; exact absurd hc hf
            · rfl]
          rw [← h1]
          exact change_tick k1 (by exact True.intro) n
      · rw [h3 n hn]; exact change_tick k1 (by exact True.intro) n
  | cnf fn ts =>
    cases h
    unfold Ctx.txCnf
    split
    · exact .same _
    · split
      · exact (same_freeUl _ _ _).change n
      · exact .same _
  | pktUlAss id m poll fn ts =>
    simp only [Ctx.step, Ctx.rxPktUlAss] at h
    split at h
    · cases h; exact .same _
    · split at h
      · cases h; exact .same _
      · exact (same_ulEvent h).change n
  | ulAck tfi final poll est fn ts =>
    simp only [Ctx.step, Ctx.rxUlAck] at h
    split at h
    · cases h; exact .same _
    · split at h
      · cases h; exact .same _
      · exact (same_ulEvent h).change n
  | pktDlAss id tfi start mask ca poll fn ts =>
    simp only [Ctx.step, Ctx.rxPktDlAss] at h
    split at h
    · cases h; exact .same _
    · rename_i g hg
      split at h
      · rename_i s1 o1 h1
        split at h
        · rename_i s2 h2
          cases h
          have k1 := tick_dlAssign h1
          have k2 : SameDl s1 s2 := by
            unfold Ctx.dlAssPoll at h2
            split at h2
            · cases h2; exact .refl s1
            · exact same_reserve h2
            · cases h2
            · cases h2
          have k := k1.trans k2.tick
          by_cases hc : ca = true
          · rw [if_pos hc]
            subst hc
            unfold Ctx.ctrlAckRelease
            split
            · exact change_tick k (by exact True.intro) n
            · rename_i g2 hg2
              split
              · exact change_tick k (by exact True.intro) n
              · rename_i d hd
                have hs : dlTbf s2 g.n = some d := by rw [dlTbf_gre?, hg2]; exact hd
                split
                · rename_i ht
                  rw [dlTbf_freeDl hs]
                  split
                  · rename_i hn
                    rw [hn]
                    rcases k.2 g.n with hk | ⟨i, a, -, hk⟩
                    · rw [← hk, hs]; exact .controlAck d _ _ _ _ _ _ _ rfl ht
                    · rw [hs] at hk
                      injection hk with hk
                      rw [hk] at ht
                      cases ht
                  · exact change_tick k (by exact True.intro) n
                · exact change_tick k (by exact True.intro) n
          · rw [if_neg hc]; exact change_tick k (by exact True.intro) n
        · cases h
        · cases h
      · cases h
      · cases h
  | dlData tfi last poll fn ts =>
    simp only [Ctx.step, Ctx.rxDlData] at h
    split at h
    · cases h; exact .same _
    · rename_i g hg
      split at h
      · cases h; exact .same _
      · rename_i d hd
        have hmem : g ∈ s.es := List.mem_of_find?_eq_some hg
        have htfi : d.alloc.tfi = tfi := by
          have := List.find?_some hg
          simp only [hd] at this
          simpa using this
        have hg? := gre?_of_mem w.nd hmem
        have hs : dlTbf s g.n = some d := by rw [dlTbf_gre?, hg?]; exact hd
        have key : DlChange (.dlData tfi last poll fn ts) [] n s.tbfs (dlTbf s n)
            (dlTbf (s.setGre g.n fun g => { g with dl := some { d with t3190 := true, st := if last then .finished else d.st } }) n) := by
          have e := dlTbf_set s g.n
            (fun g => { g with dl := some { d with t3190 := true, st := if last then .finished else d.st } }) (fun _ => rfl) n
          refine Eq.mpr (congrArg _ e) ?_
          by_cases hn : n = g.n
          · rw [if_pos hn, hn, hs, hg?]
            exact .data d last poll fn ts (by rw [htfi])
          · rw [if_neg hn]; exact .same _
        split at h
        · cases h; exact key
        · split at h
          · rename_i h2
            cases h
            rw [(same_reserve h2).2]
            exact key
          · cases h
          · cases h
        · cases h
        · cases h
  | immAssUl m fn ts =>
    simp only [Ctx.step, Ctx.rxImmAssUl] at h
    split at h
    · cases h; exact .same _
    · split at h
      · cases h; exact .same _
      · exact (same_ulEvent h).change n
  | immAssDl tlli tfi start fn ts =>
    simp only [Ctx.step, Ctx.rxImmAssDl] at h
    split at h
    · cases h; exact .same _
    · exact change_tick (tick_dlAssign h) (by exact True.intro) n
  | ccchReady o =>
    simp only [Ctx.step] at h
    injection h with h
    have := same_ccch o (s.es.map Gre.n) s
    rw [h] at this
    exact this.change n
  | unitdata o tlli =>
    simp only [Ctx.step] at h
    injection h with h
    have : SameDl s (s.unitdata o tlli).1 := by
      unfold Ctx.unitdata
      split
      · exact same_startUl _ _ _
      · exact (same_addGre _ _ _ _).trans (same_startUl _ _ _)
    rw [h] at this
    exact this.change n
  | assign old new ptmsi imsi =>
    cases h
    unfold Ctx.assign
    split
    · split
      · exact .same _
      · split
        · exact .same _
        · exact (same_addGre _ _ _ _).change n
    · split
      · exact .same _
      · rename_i g hg
        split
        · rename_i hn
          subst hn
          rw [dlTbf_freeGre]
          split
          · cases hd : dlTbf s n with
            | none => exact .same _
            | some d => exact .givenUp d old ptmsi imsi rfl
          · exact .same _
        · refine dlChange_of_eq ?_
          have k : SameDl s (s.setGre g.n fun g =>
              { g with names := { g.names with tlli := new, oldTlli := old, ptmsi := ptmsi, imsi := imsi } }) :=
            same_set g.n _ (fun _ => rfl) (fun _ => rfl)
          exact k.2 n
  | ulTimer o m k =>
    simp only [Ctx.step, Ctx.ulTimer] at h
    split at h
    · cases h; exact .same _
    · split at h
      · cases h; exact .same _
      · exact (same_ulEvent h).change n
  | t3190 m => cases h; exact change_dlTimer false m n
  | t3192 m => cases h; exact change_dlTimer true m n
  | idleTimer m =>
    simp only [Ctx.step] at h
    injection h with h
    have : SameDl s (s.idleTimer m).1 := by
      unfold Ctx.idleTimer
      split
      · exact .refl s
      · split
        · exact same_set m _ (fun _ => rfl) (fun _ => rfl)
        · exact .refl s
    rw [h] at this
    exact this.change n

end Verif.Rlc
