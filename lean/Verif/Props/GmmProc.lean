import Verif.Gmm.EntityLemmas
import Verif.Spec.Gmm
/-!
# C52, C53, C86–C88: attach and routing area updating
-/
namespace Verif.Props
open Verif Verif.Gmm
open Verif.Spec.Gmm (Mark answered answered_append LinkEv linkUp linkUp_append maxExpiries)

/-- The entity of a mobile station after a history that began when it was created. -/
def GmmReach (cfg : GmmCfg) (g : Gmme) (t : List GmmObs) : Prop :=
  ∃ (enabled : Bool) (ptmsi rnd : Nat) (imsi : List Nat) (l : List GmmIn),
    gmmRun cfg (gmmeAlloc enabled ptmsi imsi rnd) l = .ok (g, t)

/-! ## The counters -/

/-- The counters of the procedures. -/
structure Core (g : Gmme) : Prop where
  idle : g.st ≠ .regInit → g.attAttempts = 0
  att  : g.attAttempts ≤ 3
  rau  : g.rauAttempts < 256

theorem Core.same {g h : Gmme} (c : Core g) (s : Same g h) : Core h :=
  ⟨by rw [s.st, s.attAttempts]; exact c.idle, by rw [s.attAttempts]; exact c.att,
   by rw [s.rauAttempts]; exact c.rau⟩

theorem toDereg_core {g : Gmme} (h : g.rauAttempts < 256) : Core (toDereg g).1 :=
  ⟨fun _ => rfl, Nat.zero_le _, h⟩

theorem toReg_core {g : Gmme} (h : g.rauAttempts < 256) : Core (toReg g) :=
  ⟨fun _ => rfl, Nat.zero_le _, h⟩

theorem startAttach_core {cfg : GmmCfg} {ok : GmmOut → Bool} {g : Gmme} (c : Core g) :
    Core (startAttach cfg ok g).1 := by
  unfold startAttach
  split
  · exact c
  · dsimp only
    split
    · exact ⟨fun h => absurd rfl h, c.att, c.rau⟩
    · exact c

theorem fsm_core {cfg : GmmCfg} {ok : GmmOut → Bool} {g : Gmme} {fe : FsmEv} {x : Gmme × List GmmOut}
    (c : Core g) (h : gmmFsm cfg ok g fe = some x) : Core x.1 := by
  unfold gmmFsm at h
  split at h <;> first | cases h | (injection h with h; subst h)
  all_goals first
    | exact toDereg_core c.rau
    | exact toReg_core c.rau
    | exact startAttach_core c
    | exact c
    | skip
  · rename_i hs; exact ⟨fun _ => c.idle (by rw [hs]; decide), c.att, c.rau⟩
  · rename_i hs
    unfold startRau
    dsimp only
    split
    · exact ⟨fun _ => c.idle (by rw [hs]; decide), c.att, c.rau⟩
    · exact c
  · rename_i hs; exact ⟨fun _ => c.idle (by rw [hs]; decide), c.att, c.rau⟩
  · unfold rauRejectedAct
    split
    · exact toReg_core c.rau
    · exact toDereg_core c.rau

theorem dispatch_core {cfg : GmmCfg} {ok : GmmOut → Bool} {g : Gmme} {pre : List GmmOut} {fe : FsmEv}
    (c : Core g) : Core (dispatch cfg ok g pre fe).g := by
  unfold dispatch
  split
  · rename_i h; exact fsm_core c h
  · exact c

theorem step_core {cfg : GmmCfg} (g : Gmme) (ok : GmmOut → Bool) (ev : GmmEv) (r : GmmStep) (c : Core g)
    (h : gmmStep cfg ok g ev = .ok r) : Core r.g := by
  cases ev with
  | enable on => injection h with h; subst h; exact dispatch_core c
  | attachReq p =>
    injection h with h; subst h
    exact dispatch_core ⟨c.idle, c.att, c.rau⟩
  | detachReq t p =>
    injection h with h; subst h
    exact dispatch_core (g := { g with detType := t }) ⟨c.idle, c.att, c.rau⟩
  | simAuthRsp a k rnd s kc =>
    injection h with h; subst h
    unfold simAuthRspAct
    split
    · refine Core.same c ?_
      exact Same.trans (Same.trans (by same : Same g { g with kc := kc }) (t3316Start_same _ _))
        authFinish_same
    · exact c
  | establishReq s p =>
    injection h with h; subst h
    unfold establishReqAct
    dsimp only
    split
    · exact ⟨c.idle, c.att, c.rau⟩
    · exact dispatch_core ⟨c.idle, c.att, c.rau⟩
  | smUnitdataReq b => injection h with h; subst h; exact c
  | pageInd => injection h with h; subst h; exact Core.same c (readyStart_same g)
  | llcTransmitted => injection h with h; subst h; exact Core.same c (readyStart_same g)
  | rx b =>
    cases rx_shape h with
    | quiet hs _ => exact Core.same c hs
    | event g1 pre fe hs _ _ hg _ => rw [hg]; exact dispatch_core (Core.same c hs)
  | fsmTimer =>
    injection h with h; subst h
    unfold fsmTimeout
    split
    · rename_i hs
      split
      · unfold dispatch
        simp only [gmmFsm, hs]
        exact toDereg_core (g := { g with attAttempts := (g.attAttempts + 1) % 256, st := .regInit }) c.rau
      · have := c.att
        exact ⟨fun h => absurd hs h, by dsimp only; omega, c.rau⟩
    · split
      · exact dispatch_core ⟨c.idle, c.att, by dsimp only; omega⟩
      · exact ⟨c.idle, c.att, by dsimp only; omega⟩
    · exact c
  | t3314 =>
    injection h with h; subst h
    dsimp only
    split
    · exact Core.same c (Same.trans (by same : Same g { g with run3314 := false }) (t3312Start_same _))
    · exact c
  | t3312 =>
    injection h with h; subst h
    unfold periodicUpdate
    split
    · exact dispatch_core (g := { g with run3312 := false, rauType := 3 }) ⟨c.idle, c.att, c.rau⟩
    · exact c
  | t3316 =>
    injection h with h; subst h
    dsimp only
    split
    · exact ⟨c.idle, c.att, c.rau⟩
    · exact c

theorem reach_core {cfg : GmmCfg} {g : Gmme} {t : List GmmObs} (h : GmmReach cfg g t) : Core g := by
  obtain ⟨en, p, rnd, imsi, l, h⟩ := h
  refine gmmRun_inv (P := Core) (fun g ok ev r => step_core g ok ev r) l _ _ _ ?_ h
  exact ⟨fun _ => rfl, Nat.zero_le _, Nat.zero_lt_succ _⟩

/-! ## C52 and C86 -/

/-- The timer of the procedure expires again and again; the lists gives the answers of the neighbours. -/
def expire (oks : List (GmmOut → Bool)) : List GmmIn := oks.map fun ok => ⟨.fsmTimer, ok⟩

/-- The number of messages sent to the network. -/
def sentCount : List GmmObs → Nat
  | [] => 0
  | o :: t => (o.out.filter fun x => match x with | .llUnitdata _ _ => true | _ => false).length + sentCount t

theorem run_cons {cfg : GmmCfg} {g g' : Gmme} {i : GmmIn} {l : List GmmIn} {t : List GmmObs} {r : GmmStep}
    (h : gmmStep cfg i.ok g i.ev = .ok r) (h' : gmmRun cfg r.g l = .ok (g', t)) :
    gmmRun cfg g (i :: l) = .ok (g', ⟨i.ev, r.out, r.rc⟩ :: t) := by
  unfold gmmRun
  rw [h]
  change (gmmRun cfg r.g l >>= fun r => _) = _
  rw [h']
  rfl

/-- While neither procedure runs, no timer of theirs does anything. -/
theorem expiries_idle {cfg : GmmCfg} {g : Gmme} (h1 : g.st ≠ .regInit) (h2 : g.st ≠ .rauInit)
    (oks : List (GmmOut → Bool)) : ∃ t, gmmRun cfg g (expire oks) = .ok (g, t) ∧ sentCount t = 0 := by
  induction oks with
  | nil => exact ⟨[], rfl, rfl⟩
  | cons ok l ih =>
    obtain ⟨t, ht, hs⟩ := ih
    have e : fsmTimeout cfg ok g = ⟨g, [], none⟩ := by
      unfold fsmTimeout
      split
      · rename_i h; exact absurd h h1
      · rename_i h; exact absurd h h2
      · rfl
    have e' : gmmStep cfg ok g .fsmTimer = .ok ⟨g, [], none⟩ := congrArg Res.ok e
    exact ⟨⟨.fsmTimer, [], none⟩ :: t, run_cons (i := ⟨.fsmTimer, ok⟩) e' ht,
      by rw [sentCount, hs]; rfl⟩

/-- Exactly how long an attach procedure runs without an answer. -/
theorem attach_expiries {cfg : GmmCfg} (oks : List (GmmOut → Bool)) :
    ∀ g : Gmme, g.st = .regInit → g.attAttempts ≤ 3 →
    ∃ g' t, gmmRun cfg g (expire oks) = .ok (g', t) ∧ sentCount t ≤ 3 ∧
      (oks.length < 4 - g.attAttempts → g'.st = .regInit) ∧
      (4 - g.attAttempts ≤ oks.length → g'.st = .dereg) := by
  suffices H : ∀ g : Gmme, g.st = .regInit → g.attAttempts ≤ 3 →
    ∃ g' t, gmmRun cfg g (expire oks) = .ok (g', t) ∧ sentCount t ≤ 3 - g.attAttempts ∧
      (oks.length < 4 - g.attAttempts → g'.st = .regInit) ∧
      (4 - g.attAttempts ≤ oks.length → g'.st = .dereg) by
    intro g h1 h2
    obtain ⟨g', t, a, b, c⟩ := H g h1 h2
    exact ⟨g', t, a, by omega, c⟩
  induction oks with
  | nil =>
    intro g h1 h2
    exact ⟨g, [], rfl, Nat.zero_le _, fun _ => h1, fun h => absurd h (by simp; omega)⟩
  | cons ok l ih =>
    intro g h1 h2
    by_cases h3 : g.attAttempts = 3
    · -- the last expiry
      have e : gmmStep cfg ok g .fsmTimer = .ok (dispatch cfg ok { g with attAttempts := 4 } [] .lowLvlFail) := by
        change Res.ok (fsmTimeout cfg ok g) = _
        unfold fsmTimeout
        rw [h1]
        simp only [h3]
        rfl
      have e2 : dispatch cfg ok { g with attAttempts := 4 } [] .lowLvlFail =
          ⟨(attachFailed ok { g with attAttempts := 4 } causeMacFail).1,
           (attachFailed ok { g with attAttempts := 4 } causeMacFail).2, none⟩ := by
        unfold dispatch
        simp only [gmmFsm, h1]
        rfl
      obtain ⟨t, ht, hs⟩ := expiries_idle (cfg := cfg)
        (g := (attachFailed ok { g with attAttempts := 4 } causeMacFail).1)
        (by change GmmSt.dereg ≠ _; decide) (by change GmmSt.dereg ≠ _; decide) l
      rw [e2] at e
      refine ⟨(attachFailed ok { g with attAttempts := 4 } causeMacFail).1,
        ⟨.fsmTimer, (attachFailed ok { g with attAttempts := 4 } causeMacFail).2, none⟩ :: t,
        run_cons (i := ⟨.fsmTimer, ok⟩) e ht, ?_, ?_, ?_⟩
      · have : sentCount (⟨.fsmTimer, (attachFailed ok { g with attAttempts := 4 } causeMacFail).2, none⟩ :: t) =
            0 := by
          unfold sentCount
          rw [hs, Nat.add_zero, List.length_eq_zero_iff, List.filter_eq_nil_iff]
          intro x hx
          have : ¬ ∃ a b, x = .llUnitdata a b := by
            rintro ⟨a, b, rfl⟩
            unfold attachFailed at hx
            dsimp only at hx
            rcases List.mem_append.1 hx with hx | hx
            · unfold toDereg at hx
              dsimp only at hx
              split at hx
              · rw [List.mem_singleton] at hx; cases hx
              · cases hx
            · have hx := submit_sub hx
              rcases List.mem_append.1 hx with hx | hx
              · split at hx
                · rw [List.mem_singleton] at hx; cases hx
                · cases hx
              · split at hx
                · rw [List.mem_singleton, estRejOut, if_neg (by decide)] at hx; cases hx
                · cases hx
          cases x <;> first | rfl | (exfalso; exact this ⟨_, _, rfl⟩) | simp
        omega
      · intro h; rw [h3] at h; simp at h
      · intro _; rfl
    · have e : gmmStep cfg ok g .fsmTimer =
          .ok ⟨{ g with attAttempts := g.attAttempts + 1 }, (txAttReq cfg g).toList, none⟩ := by
        change Res.ok (fsmTimeout cfg ok g) = _
        have : (g.attAttempts + 1) % 256 = g.attAttempts + 1 := by omega
        unfold fsmTimeout
        rw [h1]
        simp only [this]
        rw [if_neg (by omega)]
      obtain ⟨g', t, a, b, c, d⟩ := ih { g with attAttempts := g.attAttempts + 1 } h1 (by dsimp only; omega)
      refine ⟨g', ⟨.fsmTimer, (txAttReq cfg g).toList, none⟩ :: t,
        run_cons (i := ⟨.fsmTimer, ok⟩) e a, ?_, ?_, ?_⟩
      · unfold sentCount
        have : ((txAttReq cfg g).toList.filter fun x => match x with | .llUnitdata _ _ => true | _ => false).length
            ≤ 1 := by
          refine Nat.le_trans (List.length_filter_le _ _) ?_
          cases txAttReq cfg g <;> simp
        dsimp only at b ⊢
        omega
      · intro h; apply c; dsimp only; simp only [List.length_cons] at h; omega
      · intro h; apply d; dsimp only; simp only [List.length_cons] at h; omega

/-- How many expiries are left when the counter of the routing area update stands at `a`. -/
def rauLeft (a : Nat) : Nat := if a < 4 then 4 - a else 260 - a

/-- Exactly how long a routing area update runs without an answer. -/
theorem rau_expiries {cfg : GmmCfg} (oks : List (GmmOut → Bool)) :
    ∀ g : Gmme, g.st = .rauInit → g.rauAttempts < 256 →
    ∃ g' t, gmmRun cfg g (expire oks) = .ok (g', t) ∧ sentCount t ≤ rauLeft g.rauAttempts - 1 ∧
      (oks.length < rauLeft g.rauAttempts → g'.st = .rauInit ∧ sentCount t = oks.length) ∧
      (rauLeft g.rauAttempts ≤ oks.length → g'.st = .reg ∧ g'.rauAttempts = 4) := by
  induction oks with
  | nil =>
    intro g h1 h2
    refine ⟨g, [], rfl, Nat.zero_le _, fun _ => ⟨h1, rfl⟩, fun h => absurd h ?_⟩
    unfold rauLeft; split <;> simp <;> omega
  | cons ok l ih =>
    intro g h1 h2
    by_cases h3 : g.rauAttempts = 3
    · have e : gmmStep cfg ok g .fsmTimer = .ok ⟨toReg { g with rauAttempts := 4 }, [], none⟩ := by
        change Res.ok (fsmTimeout cfg ok g) = _
        unfold fsmTimeout dispatch
        rw [h1]
        simp only [h3, gmmFsm, h1]
        rfl
      obtain ⟨t, ht, hs⟩ := expiries_idle (cfg := cfg) (g := toReg { g with rauAttempts := 4 })
        (by change GmmSt.reg ≠ _; decide) (by change GmmSt.reg ≠ _; decide) l
      refine ⟨toReg { g with rauAttempts := 4 }, ⟨.fsmTimer, [], none⟩ :: t,
        run_cons (i := ⟨.fsmTimer, ok⟩) e ht, ?_, ?_, ?_⟩
      · unfold sentCount; rw [hs]; exact Nat.zero_le _
      · intro h; rw [h3] at h; simp [rauLeft] at h
      · intro _; exact ⟨rfl, rfl⟩
    · have h4 : (g.rauAttempts + 1) % 256 ≠ 4 := by omega
      have e : gmmStep cfg ok g .fsmTimer =
          .ok ⟨{ g with rauAttempts := (g.rauAttempts + 1) % 256 }, [txRauReq cfg g], none⟩ := by
        change Res.ok (fsmTimeout cfg ok g) = _
        unfold fsmTimeout
        rw [h1]
        simp only
        rw [if_neg h4]
      have hl : rauLeft ((g.rauAttempts + 1) % 256) + 1 = rauLeft g.rauAttempts := by
        unfold rauLeft
        by_cases h5 : g.rauAttempts = 255
        · rw [h5]; rfl
        · rw [Nat.mod_eq_of_lt (by omega)]
          split <;> split <;> omega
      obtain ⟨g', t, a, b, c, d⟩ := ih { g with rauAttempts := (g.rauAttempts + 1) % 256 } h1
        (by dsimp only; omega)
      dsimp only at b c d
      refine ⟨g', ⟨.fsmTimer, [txRauReq cfg g], none⟩ :: t,
        run_cons (i := ⟨.fsmTimer, ok⟩) e a, ?_, ?_, ?_⟩
      · have : sentCount (⟨.fsmTimer, [txRauReq cfg g], none⟩ :: t) = 1 + sentCount t := rfl
        have : 1 ≤ rauLeft ((g.rauAttempts + 1) % 256) := by unfold rauLeft; split <;> omega
        omega
      · intro h
        simp only [List.length_cons] at h
        obtain ⟨c1, c2⟩ := c (by omega)
        refine ⟨c1, ?_⟩
        have : sentCount (⟨.fsmTimer, [txRauReq cfg g], none⟩ :: t) = 1 + sentCount t := rfl
        simp only [List.length_cons]
        omega
      · intro h
        simp only [List.length_cons] at h
        exact d (by omega)

/-- C52: without an answer from the network an attach procedure ends, whenever it was started, after at
most 4 expiries and with at most 3 retransmissions, and a routing area update after at most 256 expiries
and with at most 255 retransmissions. -/
theorem c52_terminate {cfg : GmmCfg} {g : Gmme} {t : List GmmObs} (h : GmmReach cfg g t)
    (oks : List (GmmOut → Bool)) :
    (g.st = .regInit → 4 ≤ oks.length →
      ∃ g' t', gmmRun cfg g (expire oks) = .ok (g', t') ∧ g'.st = .dereg ∧ sentCount t' ≤ 3) ∧
    (g.st = .rauInit → 256 ≤ oks.length →
      ∃ g' t', gmmRun cfg g (expire oks) = .ok (g', t') ∧ g'.st = .reg ∧ sentCount t' ≤ 255) := by
  have c := reach_core h
  constructor
  · intro hs hl
    obtain ⟨g', t', h1, h2, _, h4⟩ := attach_expiries (cfg := cfg) oks g hs c.att
    exact ⟨g', t', h1, h4 (by omega), h2⟩
  · intro hs hl
    obtain ⟨g', t', h1, h2, _, h4⟩ := rau_expiries (cfg := cfg) oks g hs c.rau
    have : rauLeft g.rauAttempts ≤ 256 := by unfold rauLeft; split <;> omega
    exact ⟨g', t', h1, (h4 (by omega)).1, by omega⟩

/-- Parameters of a first attach. -/
def prm0 : AttachPrm := ⟨1, false, 0x556677, [], [], zeroRa⟩

/-- Everything is accepted by the neighbours. -/
def yes : GmmOut → Bool := fun _ => true

/-- ATTACH ACCEPT of the test of /repo: a periodic update timer of 10 minutes, a READY timer of 44 s and a
P-TMSI. -/
def attAccMsg : Octets :=
  [0x08, 0x02, 0x01, 0x2a, 0x44, 0x32, 0xf4, 0x07, 0x00, 0x05, 0x00, 0x17, 0x16, 0x18, 0x05, 0xf4, 0xea,
   0x71, 0x1b, 0x41]

/-- A mobile station attaches, is accepted (with a periodic update timer of 10 minutes and a READY timer
of 44 s), sends something and stays silent until the periodic update timer expires. -/
def toRau : List GmmIn :=
  [⟨.attachReq prm0, yes⟩,
   ⟨.rx attAccMsg, yes⟩,
   ⟨.llcTransmitted, yes⟩, ⟨.t3314, yes⟩, ⟨.t3312, yes⟩]

/-- The mobile station of the examples. -/
def ms0 : Gmme := gmmeAlloc true 0x1234 [2, 4, 1] 0

/-- Ends of histories that are known to exist. -/
def finalOf (r : Res (Gmme × List GmmObs)) : Gmme :=
  match r with
  | .ok (g, _) => g
  | _ => ms0

/-- What was seen in histories that are known to exist. -/
def traceOf (r : Res (Gmme × List GmmObs)) : List GmmObs :=
  match r with
  | .ok (_, t) => t
  | _ => []

/-- Did the history end without abort? -/
def okRun (r : Res (Gmme × List GmmObs)) : Bool :=
  match r with
  | .ok _ => true
  | _ => false

theorem okRun_eq {r : Res (Gmme × List GmmObs)} (h : okRun r = true) : r = .ok (finalOf r, traceOf r) := by
  cases r with
  | ok x => rfl
  | err e => cases h
  | ub u => cases h

/-- A history from the creation of `ms0` that ends without abort. -/
theorem reach0 {l : List GmmIn} (h : okRun (gmmRun defaultCfg ms0 l) = true) :
    GmmReach defaultCfg (finalOf (gmmRun defaultCfg ms0 l)) (traceOf (gmmRun defaultCfg ms0 l)) :=
  ⟨true, 0x1234, 0, [2, 4, 1], l, okRun_eq h⟩

/-- A second routing area update, after one that got no answer. -/
def secondRau : List GmmIn :=
  toRau ++ expire [yes, yes, yes, yes] ++ [⟨.llcTransmitted, yes⟩, ⟨.t3314, yes⟩, ⟨.t3312, yes⟩]

/-- Both procedures are met in histories. -/
example : (∃ g t, GmmReach defaultCfg g t ∧ g.st = .regInit) ∧
    ∃ g t, GmmReach defaultCfg g t ∧ g.st = .rauInit ∧ g.rauAttempts = 4 :=
  ⟨⟨_, _, reach0 (l := [⟨.attachReq prm0, yes⟩]) (by decide +kernel), by decide +kernel⟩,
   ⟨_, _, reach0 (l := secondRau) (by decide +kernel), by decide +kernel, by decide +kernel⟩⟩

/-- C86: as the standard has it, once one of the procedures has started it goes on until the fifth expiry
of its timer, and ends with it. -/
def C86Statement : Prop :=
  ∀ cfg g t, GmmReach cfg g t → ∀ ok ev r, gmmStep cfg ok g ev = .ok r →
    ∀ s ∈ [GmmSt.regInit, GmmSt.rauInit], g.st ≠ s → r.g.st = s →
      ∀ oks g' t', gmmRun cfg r.g (expire oks) = .ok (g', t') → (g'.st = s ↔ oks.length < maxExpiries)

/-- The last event of a history. -/
theorem reach_step {cfg : GmmCfg} {g0 g : Gmme} {l : List GmmIn} {t : List GmmObs} {i : GmmIn}
    (h : gmmRun cfg g0 l = .ok (g, t)) :
    gmmRun cfg g0 (l ++ [i]) = (gmmStep cfg i.ok g i.ev >>= fun r => .ok (r.g, t ++ [⟨i.ev, r.out, r.rc⟩])) := by
  induction l generalizing g0 t with
  | nil =>
    obtain ⟨rfl, rfl⟩ := gmmRun_nil h
    rw [List.nil_append]
    unfold gmmRun
    cases gmmStep cfg i.ok g i.ev <;> rfl
  | cons j l ih =>
    obtain ⟨r, t', h1, h2, rfl⟩ := gmmRun_cons h
    rw [List.cons_append]
    unfold gmmRun
    rw [h1]
    change (gmmRun cfg r.g (l ++ [i]) >>= fun r => _) = _
    rw [ih h2]
    cases gmmStep cfg i.ok g i.ev <;> rfl

/-- The attach procedure is given up on the fourth expiry. -/
theorem c86_violated : ¬ C86Statement := by
  intro h
  have h0 : GmmReach defaultCfg ms0 [] := ⟨true, 0x1234, 0, [2, 4, 1], [], rfl⟩
  have h1 := h _ _ _ h0 yes (.attachReq prm0) _ rfl .regInit (by decide) (by decide +kernel)
    (by decide +kernel) [yes, yes, yes, yes] _ _ (okRun_eq (by decide +kernel))
  exact absurd (h1.2 (by decide)) (by decide +kernel)

/-- A mobile station that has given up an update and starts the next one. -/
def afterFirst : Gmme :=
  (periodicUpdate defaultCfg yes (finalOf (gmmRun defaultCfg ms0
    (toRau ++ expire [yes, yes, yes, yes] ++ [⟨.llcTransmitted, yes⟩, ⟨.t3314, yes⟩])))).g

/-- A routing area update after one that got no answer is still not given up after 255 expiries. -/
theorem c86_violated_rau :
    ∃ g t, GmmReach defaultCfg g t ∧ g.st = .reg ∧
      ∃ r, gmmStep defaultCfg yes g .t3312 = .ok r ∧ r.g.st = .rauInit ∧
        ∀ oks : List (GmmOut → Bool), oks.length ≤ 255 →
          ∃ g' t', gmmRun defaultCfg r.g (expire oks) = .ok (g', t') ∧ g'.st = .rauInit ∧
            sentCount t' = oks.length := by
  refine ⟨_, _, reach0 (l := toRau ++ expire [yes, yes, yes, yes] ++ [⟨.llcTransmitted, yes⟩, ⟨.t3314, yes⟩])
    (by decide +kernel), by decide +kernel, _, rfl, by decide +kernel, ?_⟩
  intro oks ho
  have hs : afterFirst.st = .rauInit := by decide +kernel
  have hl : rauLeft afterFirst.rauAttempts = 256 := by decide +kernel
  have hb : afterFirst.rauAttempts < 256 := by decide +kernel
  obtain ⟨g', t', h1, _, h3, _⟩ := rau_expiries (cfg := defaultCfg) oks afterFirst hs hb
  exact ⟨g', t', h1, h3 (by omega)⟩

theorem fsm_zero {cfg : GmmCfg} {ok : GmmOut → Bool} {g : Gmme} {fe : FsmEv} {x : Gmme × List GmmOut}
    (h0 : g.attAttempts = 0) (h : gmmFsm cfg ok g fe = some x) : x.1.attAttempts = 0 := by
  unfold gmmFsm at h
  split at h <;> first | cases h | (injection h with h; subst h)
  all_goals first
    | rfl
    | exact h0
    | skip
  · unfold startAttach
    split
    · exact h0
    · dsimp only
      split <;> exact h0
  · unfold startRau
    dsimp only
    split <;> exact h0
  · unfold rauRejectedAct
    split <;> rfl

theorem dispatch_zero {cfg : GmmCfg} {ok : GmmOut → Bool} {g : Gmme} {pre : List GmmOut} {fe : FsmEv}
    (h0 : g.attAttempts = 0) : (dispatch cfg ok g pre fe).g.attAttempts = 0 := by
  unfold dispatch
  split
  · rename_i h; exact fsm_zero h0 h
  · exact h0

theorem step_zero {cfg : GmmCfg} {g : Gmme} {ok : GmmOut → Bool} {ev : GmmEv} {r : GmmStep}
    (h0 : g.attAttempts = 0) (h1 : g.st ≠ .regInit) (h : gmmStep cfg ok g ev = .ok r) :
    r.g.attAttempts = 0 := by
  cases ev with
  | enable on => injection h with h; subst h; exact dispatch_zero h0
  | attachReq p => injection h with h; subst h; exact dispatch_zero h0
  | detachReq t p =>
    injection h with h; subst h
    exact dispatch_zero (g := { g with detType := t }) h0
  | simAuthRsp a k rnd s kc =>
    injection h with h; subst h
    unfold simAuthRspAct
    split
    · rw [(Same.trans (Same.trans (by same : Same g { g with kc := kc }) (t3316Start_same _ _))
        authFinish_same).attAttempts]
      exact h0
    · exact h0
  | establishReq s p =>
    injection h with h; subst h
    unfold establishReqAct
    dsimp only
    split
    · exact h0
    · exact dispatch_zero h0
  | smUnitdataReq b => injection h with h; subst h; exact h0
  | pageInd => injection h with h; subst h; exact (readyStart_same g).attAttempts.trans h0
  | llcTransmitted => injection h with h; subst h; exact (readyStart_same g).attAttempts.trans h0
  | rx b =>
    cases rx_shape h with
    | quiet hs _ => exact hs.attAttempts.trans h0
    | event g1 pre fe hs _ _ hg _ => rw [hg]; exact dispatch_zero (hs.attAttempts.trans h0)
  | fsmTimer =>
    injection h with h; subst h
    unfold fsmTimeout
    split
    · rename_i hs; exact absurd hs h1
    · split
      · exact dispatch_zero h0
      · exact h0
    · exact h0
  | t3314 =>
    injection h with h; subst h
    dsimp only
    split
    · exact (Same.trans (by same : Same g { g with run3314 := false }) (t3312Start_same _)).attAttempts.trans h0
    · exact h0
  | t3312 =>
    injection h with h; subst h
    unfold periodicUpdate
    split
    · exact dispatch_zero (g := { g with run3312 := false, rauType := 3 }) h0
    · exact h0
  | t3316 =>
    injection h with h; subst h
    dsimp only
    split <;> exact h0

/-- C86, what holds: an attach procedure ends exactly with the fourth expiry after it started; a routing
area update ends exactly with the fourth expiry if its counter stands at 0, which is the case for the
first one of a mobile station. -/
theorem c86_fourth_partial {cfg : GmmCfg} {g : Gmme} {t : List GmmObs} (h : GmmReach cfg g t)
    {ok : GmmOut → Bool} {ev : GmmEv} {r : GmmStep} (hr : gmmStep cfg ok g ev = .ok r)
    {oks : List (GmmOut → Bool)} {g' : Gmme} {t' : List GmmObs}
    (hx : gmmRun cfg r.g (expire oks) = .ok (g', t')) :
    (g.st ≠ .regInit → r.g.st = .regInit → (g'.st = .regInit ↔ oks.length < 4)) ∧
    (r.g.st = .rauInit → r.g.rauAttempts = 0 → (g'.st = .rauInit ↔ oks.length < 4)) := by
  have c := reach_core h
  have c' := step_core g ok ev r c hr
  constructor
  · intro h1 h2
    have h0 : r.g.attAttempts = 0 := step_zero (c.idle h1) h1 hr
    obtain ⟨g1, t1, e1, _, e2, e3⟩ := attach_expiries (cfg := cfg) oks r.g h2 c'.att
    rw [hx] at e1
    injection e1 with e1
    injection e1 with e1 _
    subst e1
    rw [h0] at e2 e3
    constructor
    · intro h4
      by_cases h5 : oks.length < 4
      · exact h5
      · rw [e3 (by omega)] at h4; cases h4
    · exact fun h4 => e2 (by omega)
  · intro h2 h0
    obtain ⟨g1, t1, e1, _, e2, e3⟩ := rau_expiries (cfg := cfg) oks r.g h2 c'.rau
    rw [hx] at e1
    injection e1 with e1
    injection e1 with e1 _
    subst e1
    rw [h0] at e2 e3
    constructor
    · intro h4
      by_cases h5 : oks.length < 4
      · exact h5
      · rw [(e3 (by unfold rauLeft; simp; omega)).1] at h4; cases h4
    · exact fun h4 => (e2 (by unfold rauLeft; simp; omega)).1

end Verif.Props
