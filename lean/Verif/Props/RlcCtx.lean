import Verif.Rlc.CtxKeeps
import Verif.Props.RlcSched

/-!
# C111, C112 (continued), C113 to C117: reservations, downlink assignments, release of the PDCH, isolation of entities
-/
namespace Verif.Props
open Verif Verif.Rlc Verif.Spec

/-! ## C111, C112: a reservation stays until its block comes -/

/-- **C111** (part): a block reserved for the answer to a poll stays reserved until an uplink block on its timeslot comes
that is not earlier, or until the TBF that was polled is gone, whatever happens. -/
theorem c111_reserved_until_due_partial {env : UlEnv} {evs : List CtxEv} {s : Ctx} {outs0 : List CtxOut}
    (hr : Ctx.init.run env evs = .ok (s, outs0)) {ts : Nat} {x : PollNode} (hx : x ∈ s.polls.getD ts []) {e : CtxEv}
    {s' : Ctx} {outs : List CtxOut} (h : s.step env e = .ok (s', outs)) :
    x ∈ s'.polls.getD ts [] ∨
    (∃ a fn usf, e = .rts a fn ts usf ∧ (x.fn = fn ∨ ¬ fncmp x.fn fn > 0)) ∨
    ∃ i, x.owner = .tbf i ∧ ∀ g ∈ s'.es, ¬ ((∃ t, g.ul = some (i, t)) ∨ ∃ d, g.dl = some d ∧ d.id = i) := by
  have w := run_wf evs (init_wf false _) hr
  have has : ∀ {g : Gre} {i : Nat}, ((∃ t, g.ul = some (i, t)) ∨ ∃ d, g.dl = some d ∧ d.id = i) → g.Has i := by
    rintro g i (⟨t, hu⟩ | ⟨d, hd, rfl⟩)
    · exact .inl (ulId_of hu)
    · exact .inr (dlId_of hd)
  rcases step_moves w h with ⟨g, hg, -, rfl, -⟩ | ⟨n, -, rfl, -⟩ | ⟨m, -⟩
  · by_cases ho : g.owns x = true
    · right; right
      unfold Gre.owns at ho
      split at ho
      · rename_i i hi
        simp only [Bool.or_eq_true, beq_iff_eq] at ho
        refine ⟨i, hi, fun g' hg' hh => ?_⟩
        obtain ⟨hm, hne⟩ := mem_freeGre.1 hg'
        exact hne (w.uu g' hm g hg i (has hh) ho)
      · cases ho
    · left
      simp only [Ctx.freeGre, dropPolls_eq]
      rw [List.getD_eq_getElem?_getD] at hx ⊢
      rw [List.getElem?_map]
      cases e : s.polls[ts]? with
      | none => rw [e] at hx; simp at hx
      | some l =>
        rw [e] at hx
        exact List.mem_filter.2 ⟨hx, by simpa using ho⟩
  · left
    unfold Ctx.idleTimer
    split
    · exact hx
    · split <;> exact hx
  · have hlt : ∀ i, x.owner = .tbf i → i < s.tbfs := by
      intro i hi
      have hl := (getD_polls w.polls ts).1 x hx
      unfold Live at hl
      split at hl
      · rename_i j _ h2
        obtain ⟨g, hg, hj⟩ := hl
        rw [hi] at h2; cases h2
        exact w.idlt g hg i (.inl hj)
      · rename_i j _ h2
        obtain ⟨g, hg, hj⟩ := hl
        rw [hi] at h2; cases h2
        exact w.idlt g hg i (.inl hj)
      · rename_i j _ h2
        obtain ⟨g, hg, hj⟩ := hl
        rw [hi] at h2; cases h2
        exact w.idlt g hg i (.inr hj)
      · rename_i j _ h2
        rw [hi] at h2; cases h2
      · exact hl.elim
    by_cases hu : UsedBy e ts x
    · right; left
      cases e with
      | rts a fn t usf =>
        obtain ⟨rfl, hf⟩ := hu
        exact ⟨a, fn, usf, rfl, hf⟩
      | _ => exact hu.elim
    · rcases m.polls ts x hx hlt hu with h1 | ⟨i, ho, h1⟩
      · exact .inl h1
      · exact .inr (.inr ⟨i, ho, fun g hg hh => h1 g hg (has hh)⟩)

example : (⟨117, .dlAck, .tbf 0⟩ : PollNode) ∈ (endOf (dlFinished ++ [.rts allOk 113 4 3])).1.polls.getD 4 [] := by decide

/-- **C112** (part): after an uplink block no reservation on its timeslot is left that is not later. -/
theorem c112_no_stale_partial {env : UlEnv} {s s' : Ctx} {a : Avail} {fn ts usf : Nat} {outs : List CtxOut}
    (h : s.step env (.rts a fn ts usf) = .ok (s', outs)) : ∀ x ∈ s'.polls.getD ts [], fncmp x.fn fn > 0 := rts_expires h

example : (endOf (dlFinished ++ [.rts allOk 121 4 3])).1.polls.getD 4 [] = [] := by decide

/-! ## C113 -/

/-- **C113** (full).  A downlink assignment without starting time, or whose starting time is not later than now, begins at
once: the lower layer is configured for it.  One with a later starting time begins in that very frame: not before,
whatever happens in between (but another assignment), and on the first indication of that frame on a timeslot of it. -/
def C113Statement : Prop :=
  ∀ env evs s outs0, Ctx.init.run env evs = .ok (s, outs0) →
    ∀ g e a start fn, AssignsDl s g e a start fn → ∀ sf, StartsAt env fn start sf →
      ∀ s' o, s.step env e = .ok (s', o) →
        ((∀ f, sf = some f → ¬ fncmp f fn > 0) → ∃ a', .cfgDl g.n a' ∈ o) ∧
        ∀ f, sf = some f → fncmp f fn > 0 → (∀ a', .cfgDl g.n a' ∉ o) ∧
          ∀ evs2 s2 o2, Quiet env g.n (AtFrame f) s' evs2 → s'.run env evs2 = .ok (s2, o2) →
            (∀ a', .cfgDl g.n a' ∉ o2) ∧
            ∀ av ts usf s3 o3, a.ts[ts]? = some true → s2.step env (.rts av f ts usf) = .ok (s3, o3) →
              ∃ a', .cfgDl g.n a' ∈ o3

/-- **C113**: partial: the first indication of the frame counts only if it is for timeslot 0. -/
theorem c113_begins_partial {env : UlEnv} {evs : List CtxEv} {s : Ctx} {outs0 : List CtxOut}
    (hr : Ctx.init.run env evs = .ok (s, outs0)) {g : Gre} {e : CtxEv} {a : DlAlloc} {start : Option StartTime} {fn : Nat}
    (ha : AssignsDl s g e a start fn) {sf : Option Nat} (hsf : StartsAt env fn start sf) {s' : Ctx} {o : List CtxOut}
    (hs : s.step env e = .ok (s', o)) :
    ((∀ f, sf = some f → ¬ fncmp f fn > 0) → ∃ a', .cfgDl g.n a' ∈ o) ∧
    ∀ f, sf = some f → fncmp f fn > 0 → (∀ a', .cfgDl g.n a' ∉ o) ∧
      ∀ evs2 s2 o2, Quiet env g.n (AtFrame f) s' evs2 → s'.run env evs2 = .ok (s2, o2) →
        (∀ a', .cfgDl g.n a' ∉ o2) ∧
        ∀ av usf s3 o3, s2.step env (.rts av f 0 usf) = .ok (s3, o3) → ∃ a', .cfgDl g.n a' ∈ o3 := by
  have w := run_wf evs (init_wf false _) hr
  have hi : AssInv s := dlAss_run_inv evs (init_wf false _) (fun g hg => by cases hg) hr
  have w' : s'.W := step_wf (keeping_true env) w (evIn_true s e) nofun hs
  obtain ⟨m, -, -, ⟨g', hg', n', a'⟩, ho⟩ := assign_step w ha hsf hs
  have hg : g ∈ s.es := by
    cases e with
    | pktDlAss => exact ha.1.1
    | immAssDl => exact ha.1.1
    | _ => exact ha.elim
  constructor
  · intro hn
    rw [if_neg (fun ⟨f, h1, h2⟩ => hn f h1 h2)] at ho
    exact ⟨_, by rw [ho]; exact List.mem_singleton.2 rfl⟩
  · rintro f rfl hl
    rw [if_pos ⟨f, rfl, hl⟩] at ho a'
    subst ho
    refine ⟨fun a' h => (by cases h), fun evs2 s2 o2 hq hr2 => ?_⟩
    obtain ⟨⟨g2, hg2, n2, a2⟩, c⟩ := quiet_keeps (A := g'.ass) (E := AtFrame f) (fun av fn' ts usf hE hh => hE (by
      rw [a'] at hh; exact hh.2.1.symm)) evs2 w' ⟨g', hg', n', rfl⟩ hq hr2
    refine ⟨c, fun av usf s3 o3 h3 => ?_⟩
    have w2 : s2.W := run_wf evs2 w' hr2
    obtain ⟨c3, -, -⟩ := rts_due (g := g2) w2 h3 hg2 ⟨by rw [a2, a'], by rw [a2, a']; rfl, by rw [a2, a']; exact (hi g hg).1⟩
    rw [n2] at c3
    exact ⟨_, c3⟩

/-- An entity, and an assignment on timeslot 4 that begins 52 frames later. -/
def laterDl : List CtxEv := [.assign noTlli 5 1 [], .immAssDl 5 1 (some (.abs 0 1 0)) 0 4]

theorem laterDl_assigns : AssignsDl (endOf [.assign noTlli 5 1 []]).1 ⟨⟨0, 5, noTlli, 1, []⟩, none, none, .idle, false⟩
    (.immAssDl 5 1 (some (.abs 0 1 0)) 0 4) (immWanted 1 4) (some (.abs 0 1 0)) 0 :=
  ⟨⟨List.mem_singleton.2 rfl, .inl rfl, fun g hg _ => List.mem_singleton.1 hg⟩, by decide, rfl, rfl, rfl⟩

/-- **C113 is violated**: in the frame of the starting time, timeslot 4 (the one assigned) is not enough. -/
theorem c113_timeslot_violated : ¬ C113Statement := by
  intro h
  obtain ⟨-, h2⟩ := h env1 [.assign noTlli 5 1 []] (endOf [.assign noTlli 5 1 []]).1 [] rfl _ _ _ _ _ laterDl_assigns
    (some (startingTimeRfn 0 1 0)) ⟨_, rfl, rfl⟩ (endOf laterDl).1 [] rfl
  obtain ⟨-, h3⟩ := h2 _ rfl (by decide)
  obtain ⟨-, h4⟩ := h3 [] (endOf laterDl).1 [] trivial rfl
  obtain ⟨a', hc⟩ := h4 noneQueued 4 7 (endOf laterDl).1 [] rfl rfl
  cases hc

/-- On timeslot 0 it begins. -/
example : ∃ s', (endOf laterDl).1.step env1 (.rts noneQueued (startingTimeRfn 0 1 0) 0 7) = .ok (s', [.cfgDl 0 (immWanted 1 4)]) :=
  ⟨_, rfl⟩

/-! ## C114 -/

/-- **C114** (full).  When a downlink assignment begins, then with the resources of that assignment: its TFI (or the one
the TBF has, if it carries none) and exactly its timeslots. -/
def C114Statement : Prop :=
  ∀ env evs s outs0, Ctx.init.run env evs = .ok (s, outs0) →
    ∀ g e a start fn, AssignsDl s g e a start fn → ∀ sf, StartsAt env fn start sf →
      ∀ s' o, s.step env e = .ok (s', o) →
        (∀ a', .cfgDl g.n a' ∈ o → a' = a) ∧
        ∀ evs2 s2 o2, Quiet env g.n (fun _ => False) s' evs2 → s'.run env evs2 = .ok (s2, o2) →
          ∀ a', .cfgDl g.n a' ∈ o2 → a' = a

theorem set_zero_wanted {ts : Nat} (h : ts < 8) : (List.replicate 8 false).set ts true = (List.range 8).map (· == ts) := by
  have : ts = 0 ∨ ts = 1 ∨ ts = 2 ∨ ts = 3 ∨ ts = 4 ∨ ts = 5 ∨ ts = 6 ∨ ts = 7 := by omega
  rcases this with rfl | rfl | rfl | rfl | rfl | rfl | rfl | rfl <;> rfl

/-- **C114**: partial: for assignments that carry a TFI, and that come on the PACCH or while none is waiting for its
starting time. -/
theorem c114_resources_partial {env : UlEnv} {evs : List CtxEv} {s : Ctx} {outs0 : List CtxOut}
    (hr : Ctx.init.run env evs = .ok (s, outs0)) {g : Gre} {e : CtxEv} {a : DlAlloc} {start : Option StartTime} {fn : Nat}
    (ha : AssignsDl s g e a start fn) {sf : Option Nat} (hsf : StartsAt env fn start sf) {s' : Ctx} {o : List CtxOut}
    (hs : s.step env e = .ok (s', o)) (ht : CarriesTfi e) (hw : OnPacch e ∨ g.ass.waiting = false) :
    (∀ a', .cfgDl g.n a' ∈ o → a' = a) ∧
    ∀ evs2 s2 o2, Quiet env g.n (fun _ => False) s' evs2 → s'.run env evs2 = .ok (s2, o2) →
      ∀ a', .cfgDl g.n a' ∈ o2 → a' = a := by
  have w := run_wf evs (init_wf false _) hr
  have hi : AssInv s := dlAss_run_inv evs (init_wf false _) (fun g hg => by cases hg) hr
  have w' : s'.W := step_wf (keeping_true env) w (evIn_true s e) nofun hs
  obtain ⟨m, m1, m2, ⟨g', hg', n', a'⟩, ho⟩ := assign_step w ha hsf hs
  have hal : m.alloc g.ass.alloc = a := by
    cases e with
    | pktDlAss id tfi st mask ca poll f ts =>
      obtain ⟨-, hl, ⟨k, hk, rfl⟩, -⟩ := ha
      rw [m2 _ _ _ _ _ _ _ _ rfl]
      rcases hk with rfl | ⟨rfl, -⟩
      · simp only [DlAssMsg.alloc, pktWanted, Option.getD_some]
        rw [List.take_of_length_le (by omega)]
        congr 1
        rw [List.count]
        congr 1
        funext b; cases b <;> rfl
      · exact absurd rfl ht
    | immAssDl tlli tfi st f ts =>
      obtain ⟨ho, hl, rfl, -⟩ := ha
      rw [m1 _ _ _ _ _ rfl]
      rcases hw with hw | hw
      · exact hw.elim
      · rw [(hi g ho.1).2 hw]
        simp only [DlAssMsg.alloc, immWanted, DlAss.idle, DlAlloc.zero, set_zero_wanted hl]
    | _ => exact ha.elim
  constructor
  · intro x hx
    rw [ho] at hx
    split at hx
    · cases hx
    · have := List.mem_singleton.1 hx
      injection this with _ q
      rw [q, hal]
  · intro evs2 s2 o2 hq hr2 x hx
    by_cases hc : ∃ f, sf = some f ∧ fncmp f fn > 0
    · rw [if_pos hc] at a'
      rw [quiet_alloc (A := g'.ass) evs2 w' ⟨g', hg', n', .inl rfl⟩ hq hr2 x hx, a', hal]
    · rw [if_neg hc] at a'
      exact absurd hx ((quiet_keeps (A := .idle) (E := fun _ => False) (fun _ _ _ _ _ hh => by cases hh.1) evs2 w'
        ⟨g', hg', n', a'⟩ hq hr2).2 x)

/-- **C114 is violated**: while an assignment of timeslot 4 waits, one of timeslot 6 comes that begins at once: it
begins with both timeslots. -/
theorem c114_stale_timeslot_violated : ¬ C114Statement := by
  intro h
  obtain ⟨h1, -⟩ := h env1 laterDl (endOf laterDl).1 [] rfl (((endOf laterDl).1.es)[0]'(by decide)) (.immAssDl 5 2 none 4 6)
    (immWanted 2 6) none 4
    ⟨⟨List.getElem_mem _, .inl rfl, fun g hg _ => List.mem_singleton.1 hg⟩, by decide, rfl, rfl, rfl⟩ none rfl
    (endOf (laterDl ++ [.immAssDl 5 2 none 4 6])).1 [.cfgDl 0 ⟨2, 1, [false, false, false, false, true, false, true, false]⟩] rfl
  exact absurd (h1 _ (List.mem_singleton.2 rfl)) (by decide)

/-- A downlink TBF with TFI 1. -/
def dlFlow : List CtxEv := [.assign noTlli 5 1 [], .immAssDl 5 1 none 100 4]

/-- **C114 is violated** again: an assignment of more timeslots without a TFI begins with TFI 255. -/
theorem c114_no_tfi_violated : ¬ C114Statement := by
  intro h
  obtain ⟨h1, -⟩ := h env1 dlFlow (endOf dlFlow).1 (endOf dlFlow).2 rfl (((endOf dlFlow).1.es)[0]'(by decide))
    (.pktDlAss (.dlTfi 1) none none [false, false, false, false, true, true, false, false] false none 104 4)
    (pktWanted 1 [false, false, false, false, true, true, false, false]) none 104
    ⟨⟨List.getElem_mem _, ⟨_, rfl, rfl⟩, fun g hg _ => List.mem_singleton.1 hg⟩, rfl,
      ⟨1, .inr ⟨rfl, _, rfl, rfl⟩, rfl⟩, rfl, rfl⟩ none rfl
    (endOf (dlFlow ++ [.pktDlAss (.dlTfi 1) none none [false, false, false, false, true, true, false, false] false none 104 4])).1
    [.cfgDl 0 ⟨255, 2, [false, false, false, false, true, true, false, false]⟩] rfl
  exact absurd (h1 _ (List.mem_singleton.2 rfl)) (by decide)

example : ((endOf dlFlow).1.es.map fun g => g.ass.waiting) = [false] := by decide

/-! ## C115 -/

/-- **C115** (full).  The release of the PDCH is asked for only when no entity has a TBF. -/
def C115Statement : Prop :=
  ∀ env evs s outs0, Ctx.init.run env evs = .ok (s, outs0) → ∀ e s' o, s.step env e = .ok (s', o) →
    .pdchRel ∈ o → ∀ g ∈ s.es, ¬ HasTbf g

/-- **C115**: the release is asked for only by the idle timer of an entity; whenever an entity loses its last TBF its
idle timer runs from then on, whatever happens, and when it runs out the release is asked for.  Partial: other entities,
and TBFs that began meanwhile, are not looked at. -/
theorem c115_release_partial {env : UlEnv} {evs : List CtxEv} {s : Ctx} {outs0 : List CtxOut}
    (hr : Ctx.init.run env evs = .ok (s, outs0)) {e : CtxEv} {s' : Ctx} {o : List CtxOut} (hs : s.step env e = .ok (s', o)) :
    (.pdchRel ∈ o → ∃ n, e = .idleTimer n ∧ ∃ g ∈ s.es, g.n = n ∧ g.idle = true) ∧
    ∀ g ∈ s.es, HasTbf g → ∀ g' ∈ s'.es, g'.n = g.n → ¬ HasTbf g' →
      ∀ evs2 s2 o2, StaysIdle env g.n s' evs2 → s'.run env evs2 = .ok (s2, o2) →
        ∃ s3, s2.step env (.idleTimer g.n) = .ok (s3, [.pdchRel]) := by
  have w := run_wf evs (init_wf false _) hr
  have w' : s'.W := step_wf (keeping_true env) w (evIn_true s e) nofun hs
  have hb : ∀ {g : Gre}, HasTbf g → g.busy = true := by
    intro g h
    unfold Gre.busy
    rcases h with h | h
    · cases hu : g.ul with
      | none => exact absurd hu h
      | some _ => rfl
    · cases hu : g.dl with
      | none => exact absurd hu h
      | some _ => simp
  have hnb : ∀ {g : Gre}, ¬ HasTbf g → g.busy = false := by
    intro g h
    unfold Gre.busy
    cases hu : g.ul with
    | some _ => exact absurd (.inl (by rw [hu]; nofun)) h
    | none =>
      cases hd : g.dl with
      | some _ => exact absurd (.inr (by rw [hd]; nofun)) h
      | none => rfl
  constructor
  · intro hp
    rcases step_moves w hs with ⟨g, -, -, -, rfl⟩ | ⟨n, he, -, rfl⟩ | ⟨-, h⟩
    · cases hp
    · refine ⟨n, he, ?_⟩
      unfold Ctx.idleTimer at hp
      split at hp
      · cases hp
      · rename_i g hg
        obtain ⟨hm, hn⟩ := gre?_mem hg
        split at hp
        · rename_i hi; exact ⟨g, hm, hn, hi⟩
        · cases hp
    · exact absurd hp h
  · intro g hg hbu g' hg' hn hnot evs2 s2 o2 hq hr2
    have hidle : g'.idle = true := by
      rcases step_moves w hs with ⟨g0, -, -, rfl, -⟩ | ⟨n, -, rfl, -⟩ | ⟨m, -⟩
      · have := w.only hg g' (mem_freeGre.1 hg').1 hn
        subst this
        exact absurd hbu hnot
      · exfalso
        unfold Ctx.idleTimer at hg'
        split at hg'
        · rw [w.only hg g' hg' hn] at hnot; exact hnot hbu
        · split at hg'
          · obtain ⟨g0, hg0, rfl⟩ := mem_setGre.1 hg'
            have h0 : g0.n = g.n := by
              split at hn <;> exact hn
            rw [w.only hg g0 hg0 h0] at hnot
            split at hnot <;> exact hnot hbu
          · rw [w.only hg g' hg' hn] at hnot; exact hnot hbu
      · obtain ⟨g1, hg1, n1, a1, -⟩ := m.fwd g hg
        have := w'.only hg' g1 hg1 (n1.trans hn.symm)
        subst this
        exact a1.2 (hb hbu) (hnb hnot)
    obtain ⟨g2, hg2, n2, i2⟩ := run_idle evs2 w' ⟨g', hg', hn, hidle⟩ hq hr2
    have w2 : s2.W := run_wf evs2 w' hr2
    refine ⟨s2.setGre g.n fun g => { g with idle := false }, ?_⟩
    simp only [Ctx.step, Ctx.idleTimer]
    rw [← n2, gre?_of_mem w2.nd hg2]
    simp only [i2, if_true]

/-- A downlink TBF ended, and another began. -/
def dlAgain : List CtxEv := dlFlow ++ [.t3190 0, .immAssDl 5 2 none 200 4]

/-- **C115 is violated**: the idle timer still runs, and the PDCH is released under the new TBF. -/
theorem c115_new_tbf_violated : ¬ C115Statement := by
  intro h
  exact h env1 dlAgain (endOf dlAgain).1 (endOf dlAgain).2 rfl (.idleTimer 0) (endOf (dlAgain ++ [.idleTimer 0])).1 [.pdchRel]
    (by decide +kernel) (List.mem_singleton.2 rfl) (((endOf dlAgain).1.es)[0]'(by decide)) (List.getElem_mem _) (.inr nofun)

/-- A station with one TBF, and another that lost its own. -/
def twoStations : List CtxEv :=
  [.assign noTlli 5 1 [], .assign noTlli 6 2 [], .immAssDl 5 1 none 100 4, .immAssDl 6 2 none 104 4, .t3190 0]

/-- **C115 is violated** again: the PDCH is released under the TBF of another entity. -/
theorem c115_other_entity_violated : ¬ C115Statement := by
  intro h
  exact h env1 twoStations (endOf twoStations).1 (endOf twoStations).2 rfl (.idleTimer 0)
    (endOf (twoStations ++ [.idleTimer 0])).1 [.pdchRel]
    (by decide +kernel) (List.mem_singleton.2 rfl) (((endOf twoStations).1.es)[1]'(by decide)) (List.getElem_mem _) (.inr nofun)

example : ∃ g ∈ (endOf dlFlow).1.es, HasTbf g := ⟨_, List.mem_singleton.2 rfl, .inr nofun⟩
example : ∃ g ∈ (endOf (dlFlow ++ [.t3190 0])).1.es, ¬ HasTbf g := ⟨_, List.mem_singleton.2 rfl, by rintro (h | h) <;> exact h rfl⟩

/-! ## C116 -/

/-- Nothing happens to this entity: it stays as it is, so do its reservations, and nothing is asked of the lower layer
for it. -/
def Untouched (g : Gre) (s s' : Ctx) (outs : List CtxOut) : Prop :=
  g ∈ s'.es ∧ (∀ ts x, x ∈ s.polls.getD ts [] → ReservedFor x g → x ∈ s'.polls.getD ts []) ∧ ∀ o ∈ outs, ¬ OutOf g.n o

/-- **C116** (full).  A message from the network has no effect on entities that were not given the identity in it. -/
def C116Statement : Prop :=
  ∀ env evs s outs0, Ctx.init.run env evs = .ok (s, outs0) → ∀ e id s' o, addressee e = some id →
    s.step env e = .ok (s', o) → ∀ g ∈ s.es, ¬ Given id g → Untouched g s s' o

/-- **C116**: partial: unless there is an uplink TBF without resources, and the TLLI in the message, if any, is not that
of all ones. -/
theorem c116_addressed_partial {env : UlEnv} {evs : List CtxEv} {s : Ctx} {outs0 : List CtxOut}
    (hr : Ctx.init.run env evs = .ok (s, outs0)) {e : CtxEv} {id : MsId} {s' : Ctx} {o : List CtxOut}
    (hid : addressee e = some id) (hs : s.step env e = .ok (s', o))
    (hu : ∀ tfi, id = .ulTfi tfi → ∀ g ∈ s.es, ∀ i t, g.ul = some (i, t) → ∃ ts u, t.cur.usf ts = some u)
    (ht : id ≠ .tlli noTlli) : ∀ g ∈ s.es, ¬ Given id g → Untouched g s s' o := by
  have w := run_wf evs (init_wf false _) hr
  intro g hg hng
  have hnn : ¬ Names id g := by
    intro hN
    apply hng
    cases id with
    | ulTfi tfi =>
      obtain ⟨i, t, h1, h2⟩ := hN
      exact ⟨i, t, h1, h2, hu tfi rfl g hg i t h1⟩
    | dlTfi tfi => exact hN
    | tlli tlli => exact ⟨fun h => ht (by rw [h]), hN⟩
    | other => exact hN
  have hne : ∀ n, (∀ x ∈ o, x ≠ .pdchRel) → g.n ≠ n → OnlyTouches n s s' o → Untouched g s s' o := fun n hp hn t =>
    ⟨(t.others g hn).1 hg, fun ts x hx hres => t.polls g hg hn ts x hx hres, fun x hx hox => by
      have h2 := t.outs x hx
      cases x with
      | block => exact hn (hox.symm.trans h2)
      | rach => exact hn (hox.symm.trans h2)
      | cfgDl => exact hn (hox.symm.trans h2)
      | pdchRel => exact hp _ hx rfl⟩
  have hnp : ∀ x ∈ o, x ≠ .pdchRel := by
    rintro x hx rfl
    rcases step_moves w hs with ⟨_, -, -, -, rfl⟩ | ⟨n, rfl, -, -⟩ | ⟨-, h⟩
    · cases hx
    · cases hid
    · exact h hx
  have hf : ForOne e := by
    cases e <;> first | trivial | cases hid
  have hc : ∀ g, Concerns e g → Names id g := by
    intro g h
    cases e <;> cases hid <;> exact h
  rcases step_only w hf hs with ⟨rfl, rfl⟩ | ⟨g0, hg0, hc0, t⟩ | ⟨-, t⟩
  · exact ⟨hg, fun _ _ h _ => h, fun x hx => by cases hx⟩
  · refine hne g0.n hnp (fun en => hnn ?_) t
    rw [w.only hg0 g hg en]
    exact hc g0 hc0
  · exact hne s.made hnp (fun en => absurd (w.lt g hg) (by rw [en]; exact Nat.lt_irrefl _)) t

/-- A station with a downlink TBF asked for an uplink TBF and was not given one yet. -/
def askedUl : List CtxEv := dlFlow ++ [.dlData 1 false (some 0) 104 4, .rts allOk 117 4 7]

/-- **C116 is violated**: an assignment for the station with uplink TFI 0 is taken by a station that has none. -/
theorem c116_tfi_zero_violated : ¬ C116Statement := by
  intro h
  have := h env1 askedUl (endOf askedUl).1 (endOf askedUl).2 rfl
    (.pktDlAss (.ulTfi 0) (some 9) none [false, false, true, false, false, false, false, false] false none 121 4) (.ulTfi 0)
    (endOf (askedUl ++ [.pktDlAss (.ulTfi 0) (some 9) none [false, false, true, false, false, false, false, false] false none 121 4])).1
    [.cfgDl 0 ⟨9, 1, [false, false, true, false, false, false, false, false]⟩] rfl (by decide +kernel)
    (((endOf askedUl).1.es)[0]'(by decide)) (List.getElem_mem _) (by
      rintro ⟨i, t, h1, -, ts, u, h2⟩
      have ht : t.cur.ts = List.replicate 8 none := by
        have h3 : ((((endOf askedUl).1.es)[0]'(by decide)).ul.map fun x => x.2.cur.ts) = some (List.replicate 8 none) := by decide
        rw [h1] at h3
        exact Option.some.inj h3
      rw [UlAlloc.usf, ht, List.getD_eq_getElem?_getD, List.getElem?_replicate] at h2
      split at h2 <;> cases h2)
  exact this.2.2 _ (List.mem_singleton.2 rfl) rfl

/-- **C116 is violated** again: a message for the TLLI of all ones is taken by a station that has only one TLLI. -/
theorem c116_no_tlli_violated : ¬ C116Statement := by
  intro h
  have := h env1 [.assign noTlli 5 1 []] (endOf [.assign noTlli 5 1 []]).1 [] rfl (.immAssDl noTlli 1 none 100 4) (.tlli noTlli)
    (endOf [.assign noTlli 5 1 [], .immAssDl noTlli 1 none 100 4]).1 [.cfgDl 0 (immWanted 1 4)] rfl rfl
    (((endOf [.assign noTlli 5 1 []]).1.es)[0]'(by decide)) (List.getElem_mem _) (fun x => x.1 rfl)
  exact this.2.2 _ (List.mem_singleton.2 rfl) rfl

/-! ## C117 -/

/-- **C117**.  Every message, primitive or timer (that is, all events but ready-to-send and CCCH-ready indications) has an
effect on one entity at most: all others stay as they are, with their TBFs and their reservations, and nothing is asked
of the lower layer for them.  That one is the entity the event is for, or a new one if it is for none. -/
theorem c117_one_entity {env : UlEnv} {evs : List CtxEv} {s : Ctx} {outs0 : List CtxOut}
    (hr : Ctx.init.run env evs = .ok (s, outs0)) {e : CtxEv} (he : ForOne e) {s' : Ctx} {o : List CtxOut}
    (hs : s.step env e = .ok (s', o)) :
    (s' = s ∧ o = []) ∨ (∃ g ∈ s.es, Concerns e g ∧ OnlyTouches g.n s s' o) ∨
      (∀ g ∈ s.es, ¬ Concerns e g) ∧ (∀ g ∈ s.es, g.n ≠ s.made) ∧ OnlyTouches s.made s s' o := by
  have w := run_wf evs (init_wf false _) hr
  rcases step_only w he hs with h | h | ⟨h1, h2⟩
  · exact .inl h
  · exact .inr (.inl h)
  · exact .inr (.inr ⟨h1, fun g hg en => absurd (w.lt g hg) (by rw [en]; exact Nat.lt_irrefl _), h2⟩)

example : ∃ g ∈ (endOf twoStations).1.es, Concerns (.immAssDl 5 1 none 100 4) g ∧
    ∃ g' ∈ (endOf twoStations).1.es, ¬ Concerns (.immAssDl 5 1 none 100 4) g' :=
  ⟨((endOf twoStations).1.es)[0]'(by decide), List.getElem_mem _, .inl rfl, ((endOf twoStations).1.es)[1]'(by decide),
    List.getElem_mem _, by rintro (h | h) <;> exact absurd h (by decide)⟩

end Verif.Props
