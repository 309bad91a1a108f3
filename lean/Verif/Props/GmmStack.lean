import Verif.Gmm.Stack
import Verif.Props.GmmTimers
import Verif.Props.RlcDirectory
/-!
# C96: a mobile station that is accepted by the network becomes registered, with RLC/MAC below
-/
namespace Verif.Props
open Verif Verif.Gmm Verif.Rlc

/-- ATTACH ACCEPT: the fixed part (result, timer, priority, routing area) and an allocated P-TMSI if there
is one. -/
def acceptMsg (result timer prio : UInt8) (ra : Octets) (ptmsi : Option Nat) : Octets :=
  [0x08, 0x02, result, timer, prio] ++ ra ++
    (match ptmsi with
     | none => []
     | some q => [0x18, 0x05, 0xf4] ++ be32 q)

/-- The end of a history. -/
def stackEnd (r : Res (Stack × List GmmOut)) : Option Stack :=
  match r with
  | .ok (s, _) => some s
  | _ => none

/-- C96: a mobile station with a P-TMSI that asks to be attached is registered once the network has accepted
it, with or without a new P-TMSI, and RLC/MAC knows it under its TLLI. -/
def C96Statement : Prop :=
  ∀ cfg ptmsi imsi rnd prm result timer prio ra new, ptmsi < 0xffffffff → prm.withImsi = false → ra.length = 6 →
    (∀ q, new = some q → q < 0xffffffff) →
    ∃ s, stackEnd (stackRun cfg (stack0 ptmsi imsi rnd)
        [⟨.attachReq prm, yes⟩, ⟨.rx (acceptMsg result timer prio ra new), yes⟩]) = some s ∧
      s.g.st = .reg ∧ (findTlli s.d s.g.tlli).isSome

/-- Without a new P-TMSI in the message the mobile station is not registered. -/
theorem c96_violated : ¬ C96Statement := by
  intro h
  obtain ⟨s, h1, h2, _⟩ := h defaultCfg 0x1234 [2, 4, 1] 0 prm0 1 0x2a 0x44 [0x32, 0xf4, 0x07, 0x00, 0x05, 0x00] none
    (by decide) rfl rfl (fun q hq => by cases hq)
  have e : (stackEnd (stackRun defaultCfg (stack0 0x1234 [2, 4, 1] 0)
        [⟨.attachReq prm0, yes⟩, ⟨.rx (acceptMsg 1 0x2a 0x44 [0x32, 0xf4, 0x07, 0x00, 0x05, 0x00] none), yes⟩])).map
      (fun s => s.g.st) = some .regInit := by decide +kernel
  rw [h1] at e
  rw [show (some s).map (fun s => s.g.st) = some s.g.st from rfl, h2] at e
  exact absurd e (by decide)

/-! ## It is not registered however often it tries -/

theorem find_unitdata {d : GreDir} {t u : Nat} (h : (findTlli d t).isSome) :
    (findTlli (greUnitdata d u).1 t).isSome := by
  unfold greUnitdata
  split
  · exact h
  · unfold findTlli greAlloc at *
    rw [List.find?_append]
    cases e : d.es.find? (fun e => e.tlli == t || e.oldTlli == t) with
    | none => rw [e] at h; exact absurd h (by simp)
    | some x => rfl

/-- A primitive that is no GMMRR-ASSIGN.req. -/
def NoAssign : GmmOut → Prop
  | .gmmrrAssign _ _ _ => False
  | _ => True

theorem find_outs {imsi : List Nat} {t : Nat} : ∀ (outs : List GmmOut) (d : GreDir), (∀ o ∈ outs, NoAssign o) →
    (findTlli d t).isSome → (findTlli (outs.foldl (stackOut imsi) d) t).isSome
  | [], _, _, h => h
  | o :: l, d, hn, h => by
    refine find_outs l _ (fun x hx => hn x (List.mem_cons_of_mem _ hx)) ?_
    have := hn o List.mem_cons_self
    cases o <;> first | exact h | exact find_unitdata h | exact this.elim

/-- The mobile station has no old TLLI, RLC/MAC knows its TLLI, and it is not registered. -/
def Stuck (t : Nat) (s : Stack) : Prop :=
  s.g.oldTlli = noTlli ∧ s.g.tlli = t ∧ (findTlli s.d t).isSome ∧ (s.g.st = .regInit ∨ s.g.st = .dereg)

/-- The network accepts without a P-TMSI, a timer expires, or the user asks for an attach. -/
def TryEv : GmmEv → Prop
  | .attachReq _ => True
  | .fsmTimer => True
  | .rx b => b.length ≤ 11 ∧ ∃ l, b = 0x08 :: 0x02 :: l
  | _ => False

theorem submit_noassign {ok : GmmOut → Bool} {l : List GmmOut} (h : ∀ o ∈ l, NoAssign o) :
    ∀ o ∈ (submit ok l).1, NoAssign o := fun o ho => h o (submit_sub ho)

theorem attachFailed_noassign {ok : GmmOut → Bool} {g : Gmme} {c : Nat} :
    ∀ o ∈ (attachFailed ok g c).2, NoAssign o := by
  intro o ho
  unfold attachFailed toDereg at ho
  rcases List.mem_append.1 ho with h | h
  · dsimp only at h
    split at h
    · rw [List.mem_singleton] at h; subst h; trivial
    · cases h
  · have := submit_sub h
    rcases List.mem_append.1 this with h | h
    · split at h
      · rw [List.mem_singleton] at h; subst h; trivial
      · cases h
    · split at h
      · rw [List.mem_singleton] at h; subst h; unfold estRejOut; split <;> trivial
      · cases h

theorem txAttReq_noassign {cfg : GmmCfg} {g : Gmme} : ∀ o ∈ (txAttReq cfg g).toList, NoAssign o := by
  intro o ho
  unfold txAttReq at ho
  split at ho
  · rw [Option.toList_some, List.mem_singleton] at ho; subst ho; trivial
  · cases ho

theorem applyFixed_names (g : Gmme) (t : Nat) (f : Bool) (ra : Octets) :
    (applyFixed g t f ra).oldTlli = g.oldTlli ∧ (applyFixed g t f ra).tlli = g.tlli ∧
    (applyFixed g t f ra).ptmsi = g.ptmsi ∧
    (applyFixed g t f ra).st = g.st ∧ (applyFixed g t f ra).imsi = g.imsi := by
  unfold applyFixed readyStop t3312Start
  refine ⟨?_, ?_, ?_, ?_, ?_⟩ <;> (repeat' (first | rfl | split))

theorem stuck_step {cfg : GmmCfg} {t : Nat} (ht : t ≠ noTlli) {s : Stack} {i : GmmIn} (hs : Stuck t s) (hi : TryEv i.ev) :
    ∃ s' o, stackStep cfg s i = .ok (s', o) ∧ Stuck t s' := by
  obtain ⟨h1, h2, h3, h4⟩ := hs
  obtain ⟨ev, ok⟩ := i
  cases ev with
  | attachReq p =>
    refine ⟨_, _, rfl, ?_⟩
    dsimp only
    unfold attachReqAct requestAttach dispatch
    rcases h4 with h4 | h4
    · simp only [gmmFsm, storeIdentities, h4]
      refine ⟨h1, h2, ?_, .inl rfl⟩
      rw [List.nil_append]
      exact find_outs _ _ txAttReq_noassign h3
    · simp only [gmmFsm, storeIdentities, h4]
      unfold startAttach
      split
      · exact ⟨h1, h2, find_outs _ _ (fun o ho => by cases ho) h3, .inr rfl⟩
      · rename_i o ho
        have : NoAssign o := by
          unfold txAttReq at ho
          split at ho
          · injection ho with ho; subst ho; trivial
          · cases ho
        have h5 := find_outs (imsi := s.g.imsi) [o] s.d (fun x hx => by rw [List.mem_singleton] at hx; subst hx; exact this) h3
        dsimp only
        split
        · exact ⟨h1, h2, h5, .inl rfl⟩
        · exact ⟨h1, h2, h5, .inr rfl⟩
  | fsmTimer =>
    refine ⟨_, _, rfl, ?_⟩
    dsimp only
    unfold fsmTimeout
    rcases h4 with h4 | h4
    · simp only [h4]
      split
      · simp only [dispatch, gmmFsm]
        refine ⟨h1, h2, ?_, .inr rfl⟩
        rw [List.nil_append]
        exact find_outs _ _ attachFailed_noassign h3
      · exact ⟨h1, h2, find_outs _ _ txAttReq_noassign h3, .inl rfl⟩
    · simp only [h4]
      exact ⟨h1, h2, find_outs _ _ (fun o ho => by cases ho) h3, .inr h4⟩
  | rx b =>
    obtain ⟨hl, l, rfl⟩ := hi
    have e0 : gmmStep cfg (stackOk s ok) s.g (.rx (0x08 :: 0x02 :: l)) = rxAttAcc cfg (stackOk s ok) s.g (0x08 :: 0x02 :: l) := by
      show rxLlUnitdata cfg _ s.g _ = _
      unfold rxLlUnitdata
      rw [if_neg (by simp only [List.length_cons]; omega)]
      rfl
    unfold stackStep
    dsimp only
    rw [e0]
    unfold rxAttAcc
    by_cases h11 : (0x08 :: 0x02 :: l : Octets).length < 11
    · rw [if_pos h11]
      exact ⟨_, _, rfl, h1, h2, h3, h4⟩
    · rw [if_neg h11]
      generalize 0x08 :: 0x02 :: l = b at *
      have e2 : ∃ v, rd b 2 = .ok v := by exact ⟨_, rd_of_lt (by omega)⟩
      have e3 : ∃ v, rd b 3 = .ok v := by exact ⟨_, rd_of_lt (by omega)⟩
      have e4 : ∃ v, rdN b 5 6 = .ok v := by exact ⟨_, rdN_of_le (by omega)⟩
      obtain ⟨v2, e2⟩ := e2
      obtain ⟨v3, e3⟩ := e3
      obtain ⟨ra, e4⟩ := e4
      rw [e2, Res.bind_ok, e3, Res.bind_ok, e4, Res.bind_ok]
      obtain ⟨n1, n2, -, n3, -⟩ := applyFixed_names s.g v3 (decide (v2 / 16 ≠ 0)) ra
      generalize applyFixed s.g v3 (decide (v2 / 16 ≠ 0)) ra = g1 at *
      unfold attAccIes
      rw [if_neg (by omega), Res.bind_ok]
      unfold attAccEnd
      rw [if_pos rfl]
      dsimp only
      unfold submitThen
      have r1 : greAssign s.d g1.oldTlli g1.tlli g1.ptmsi s.g.imsi = (s.d, some .einval) := by
        unfold greAssign
        rw [if_pos (n1.trans h1), if_neg (by rw [n2, h2]; exact ht), if_pos (by rw [n2, h2]; exact h3)]
      have hno : stackOk s ok (rrAssignOut g1) = false := by
        show decide ((greAssign s.d g1.oldTlli g1.tlli g1.ptmsi s.g.imsi).2 = none) = false
        rw [r1]
        rfl
      have s2 : (submit (stackOk s ok) [assignOut g1, rrAssignOut g1, .llUnitdata g1.tlli attachCompl]).2 = false := by
        unfold submit
        split
        · unfold submit; rw [if_neg (by rw [hno]; decide)]
        · rfl
      have hd : (submit (stackOk s ok) [assignOut g1, rrAssignOut g1, .llUnitdata g1.tlli attachCompl]).1.foldl
          (stackOut s.g.imsi) s.d = s.d := by
        unfold submit
        split
        · unfold submit
          rw [if_neg (by rw [hno]; decide)]
          show (greAssign s.d g1.oldTlli g1.tlli g1.ptmsi s.g.imsi).1 = s.d
          rw [r1]
        · rfl
      rw [if_neg (by rw [s2]; decide)]
      refine ⟨_, _, rfl, n1.trans h1, n2.trans h2, ?_, ?_⟩
      · dsimp only
        rw [hd]; exact h3
      · rw [n3]; exact h4
  | _ => exact hi.elim

/-- A mobile station with a P-TMSI whose network accepts it without giving it a new one is never registered,
however often it tries. -/
theorem c96_violated_always (cfg : GmmCfg) (ptmsi rnd : Nat) (imsi : List Nat) (hp : ptmsi < 0xffffffff)
    (prm : AttachPrm) (hw : prm.withImsi = false) (l : List GmmIn) (hl : ∀ i ∈ l, TryEv i.ev) :
    ∃ s o, stackRun cfg (stack0 ptmsi imsi rnd) (⟨.attachReq prm, yes⟩ :: l) = .ok (s, o) ∧
      (s.g.st = .regInit ∨ s.g.st = .dereg) := by
  have ht : foreignTlli ptmsi ≠ noTlli := by
    unfold foreignTlli noTlli; omega
  have run : ∀ (l : List GmmIn) (s : Stack), (∀ i ∈ l, TryEv i.ev) → Stuck (foreignTlli ptmsi) s →
      ∃ s' o, stackRun cfg s l = .ok (s', o) ∧ Stuck (foreignTlli ptmsi) s' := by
    intro l
    induction l with
    | nil => exact fun s _ h => ⟨s, [], rfl, h⟩
    | cons i l ih =>
      intro s hl h
      obtain ⟨s1, o1, e1, h1⟩ := stuck_step (cfg := cfg) ht h (hl i List.mem_cons_self)
      obtain ⟨s2, o2, e2, h2⟩ := ih s1 (fun x hx => hl x (List.mem_cons_of_mem _ hx)) h1
      exact ⟨s2, o1 ++ o2, by unfold stackRun; rw [e1]; dsimp only; rw [e2], h2⟩
  have first : ∃ s o, stackStep cfg (stack0 ptmsi imsi rnd) ⟨.attachReq prm, yes⟩ = .ok (s, o) ∧
      Stuck (foreignTlli ptmsi) s := by
    have e : (gmmeAlloc true ptmsi imsi rnd).tlli = foreignTlli ptmsi := if_neg (by unfold reservedTmsi; omega)
    refine ⟨_, _, rfl, ?_⟩
    dsimp only [stack0]
    unfold attachReqAct requestAttach dispatch
    simp only [gmmFsm, storeIdentities, gmmeAlloc]
    simp only [startAttach, txAttReq, buildAttachReq, hw]
    refine ⟨rfl, e, ?_, .inl rfl⟩
    show (findTlli (greUnitdata greDir0 _).1 _).isSome
    have : (if ptmsi = reservedTmsi then rnd else foreignTlli ptmsi) = foreignTlli ptmsi := e
    rw [this]
    show (findTlli (greAlloc greDir0 (foreignTlli ptmsi)) (foreignTlli ptmsi)).isSome
    unfold greAlloc greDir0 findTlli
    simp
  obtain ⟨s1, o1, e1, h1⟩ := first
  obtain ⟨s2, o2, e2, h2⟩ := run l s1 hl h1
  exact ⟨s2, o1 ++ o2, by unfold stackRun; rw [e1]; dsimp only; rw [e2], h2.2.2.2⟩

/-! ## What holds -/

theorem mi_be32 {q : Nat} (h : q < 0x100000000) : miDecodeTmsi (0xf4 :: be32 q) = some q := by
  unfold be32 miDecodeTmsi
  dsimp only
  rw [if_pos (by decide)]
  simp only [UInt8.toNat_ofNat']
  congr 1
  omega

theorem readyNegotiated_names (g : Gmme) :
    (readyNegotiated g).oldTlli = g.oldTlli ∧ (readyNegotiated g).tlli = g.tlli ∧
    (readyNegotiated g).ptmsi = g.ptmsi ∧ (readyNegotiated g).st = g.st ∧ (readyNegotiated g).imsi = g.imsi := by
  unfold readyNegotiated readyStop t3312Start
  refine ⟨?_, ?_, ?_, ?_, ?_⟩ <;> (repeat' (first | rfl | split))

/-- What ATTACH ACCEPT with a P-TMSI does. -/
theorem rx_accept {cfg : GmmCfg} {ok : GmmOut → Bool} {g : Gmme} {result timer prio : UInt8} {ra : Octets} {q : Nat}
    (hra : ra.length = 6) (hq : q < 0x100000000) :
    ∃ g2, gmmStep cfg ok g (.rx (acceptMsg result timer prio ra (some q))) = attAccEnd cfg ok (updatePtmsi g2 q, true) ∧
      g2.tlli = g.tlli ∧ g2.st = g.st ∧ g2.imsi = g.imsi := by
  match ra, hra with
  | [a, b, c, d, e, f], _ =>
    have e1 : gmmStep cfg ok g (.rx (acceptMsg result timer prio [a, b, c, d, e, f] (some q))) =
      (attAccIes cfg (acceptMsg result timer prio [a, b, c, d, e, f] (some q))
        (applyFixed g timer.toNat (decide (result.toNat / 16 ≠ 0)) [a, b, c, d, e, f]) >>= attAccEnd cfg ok) := rfl
    rw [e1]
    obtain ⟨-, n2, -, n4, n5⟩ := applyFixed_names g timer.toNat (decide (result.toNat / 16 ≠ 0)) [a, b, c, d, e, f]
    generalize applyFixed g timer.toNat (decide (result.toNat / 16 ≠ 0)) [a, b, c, d, e, f] = g1 at *
    have e2 : attAccIes cfg (acceptMsg result timer prio [a, b, c, d, e, f] (some q)) g1 =
      (match (miDecodeTmsi (0xf4 :: be32 q)).map
          (updatePtmsi (readyNegotiated { { g1 with ptmsiSig := reservedTmsi } with t3314s := cfg.t3314 })) with
      | some g3 => .ok (g3, true)
      | none => .ok (readyNegotiated { { g1 with ptmsiSig := reservedTmsi } with t3314s := cfg.t3314 }, false)) := rfl
    rw [e2, mi_be32 hq]
    obtain ⟨-, m2, -, m4, m5⟩ := readyNegotiated_names { { g1 with ptmsiSig := reservedTmsi } with t3314s := cfg.t3314 }
    exact ⟨_, rfl, m2.trans n2, m4.trans n4, m5.trans n5⟩

seal localTlli foreignTlli

/-- RLC/MAC knows the TLLI of a mobile station that has sent something. -/
theorem first_attach (cfg : GmmCfg) {ptmsi rnd : Nat} {imsi : List Nat} (hp : ptmsi < 0xffffffff)
    {prm : AttachPrm} (hw : prm.withImsi = false) :
    ∃ s o, stackStep cfg (stack0 ptmsi imsi rnd) ⟨.attachReq prm, yes⟩ = .ok (s, o) ∧
      s.g.st = .regInit ∧ s.g.tlli = foreignTlli ptmsi ∧
      s.d = ⟨1, [⟨0, foreignTlli ptmsi, noTlli, 0xffffffff, []⟩]⟩ := by
  have e : (gmmeAlloc true ptmsi imsi rnd).tlli = foreignTlli ptmsi := if_neg (by unfold reservedTmsi; omega)
  refine ⟨_, _, rfl, ?_⟩
  dsimp only [stack0]
  unfold attachReqAct requestAttach dispatch
  simp only [gmmFsm, storeIdentities, gmmeAlloc]
  simp only [startAttach, txAttReq, buildAttachReq, hw]
  refine ⟨rfl, e, ?_⟩
  show (greUnitdata greDir0 _).1 = _
  have : (if ptmsi = reservedTmsi then rnd else foreignTlli ptmsi) = foreignTlli ptmsi := e
  rw [this]
  rfl

theorem one_find (e : GreNames) {n t : Nat} (h : e.tlli = t ∨ e.oldTlli = t) : findTlli ⟨n, [e]⟩ t = some e := by
  unfold findTlli
  rw [List.find?_cons_of_pos]
  simpa using h

theorem one_assign {t n q p : Nat} {imsi i : List Nat} (ht : t ≠ noTlli) (hn : n ≠ noTlli) :
    greAssign ⟨1, [⟨0, t, noTlli, p, i⟩]⟩ t n q imsi = (⟨1, [⟨0, n, t, q, imsi⟩]⟩, none) := by
  unfold greAssign
  rw [if_neg ht, if_neg hn, one_find _ (.inl rfl)]
  rfl

theorem three_outs (g : Gmme) (d : GreDir) (imsi : List Nat) (b : Octets) :
    [assignOut g, rrAssignOut g, .llUnitdata g.tlli b].foldl (stackOut imsi) d =
      (greUnitdata (greAssign d g.oldTlli g.tlli g.ptmsi imsi).1 g.tlli).1 := rfl

theorem quiet_outs {imsi : List Nat} {d : GreDir} : ∀ l : List GmmOut, (∀ o ∈ l, stackOut imsi d o = d) →
    l.foldl (stackOut imsi) d = d
  | [], _ => rfl
  | o :: l, h => by
    rw [List.foldl_cons, h o List.mem_cons_self]
    exact quiet_outs l fun x hx => h x (List.mem_cons_of_mem _ hx)

theorem attachDone_dir {imsi : List Nat} {d : GreDir} {ok : GmmOut → Bool} (g : Gmme) :
    (attachDone ok g).2.foldl (stackOut imsi) d = d := by
  apply quiet_outs
  intro o ho
  unfold attachDone at ho
  have := submit_sub ho
  rcases List.mem_append.1 this with h | h
  · split at h
    · rw [List.mem_singleton] at h; subst h; rfl
    · cases h
  · split at h
    · rw [List.mem_singleton] at h; subst h; rfl
    · cases h

/-- The end of ATTACH ACCEPT when RLC/MAC knows the mobile station under its old TLLI. -/
theorem accept_end {cfg : GmmCfg} {s : Stack} {g : Gmme} {t n q p : Nat} {i : List Nat} (ht : t ≠ noTlli)
    (hn : n ≠ noTlli) (h1 : g.oldTlli = t) (h2 : g.tlli = n) (h3 : g.ptmsi = q) (h4 : g.st = .regInit)
    (h5 : s.d = ⟨1, [⟨0, t, noTlli, p, i⟩]⟩) :
    ∃ r, attAccEnd cfg (stackOk s yes) (g, true) = .ok r ∧ r.g = toReg g ∧
      r.out.foldl (stackOut s.g.imsi) s.d = ⟨1, [⟨0, n, t, q, s.g.imsi⟩]⟩ := by
  have ga : greAssign s.d g.oldTlli g.tlli g.ptmsi s.g.imsi = (⟨1, [⟨0, n, t, q, s.g.imsi⟩]⟩, none) := by
    rw [h1, h2, h3, h5]
    exact one_assign ht hn
  have hsub : submit (stackOk s yes) [assignOut g, rrAssignOut g, .llUnitdata g.tlli attachCompl] =
      ([assignOut g, rrAssignOut g, .llUnitdata g.tlli attachCompl], true) := by
    apply submit_ok
    intro o ho
    simp only [List.mem_cons, List.not_mem_nil, or_false] at ho
    rcases ho with rfl | rfl | rfl
    · rfl
    · show decide ((greAssign s.d g.oldTlli g.tlli g.ptmsi s.g.imsi).2 = none) = true
      rw [ga]; rfl
    · rfl
  refine ⟨⟨(attachDone (stackOk s yes) g).1,
    [assignOut g, rrAssignOut g, .llUnitdata g.tlli attachCompl] ++ (attachDone (stackOk s yes) g).2, none⟩, ?_, rfl, ?_⟩
  · unfold attAccEnd
    rw [if_pos rfl]
    unfold submitThen
    dsimp only
    rw [hsub, if_pos rfl]
    unfold dispatch gmmFsm
    rw [h4]
  · dsimp only
    rw [List.foldl_append, three_outs, ga, attachDone_dir]
    unfold greUnitdata
    dsimp only
    rw [one_find ⟨0, n, t, q, s.g.imsi⟩ (.inl h2.symm)]

/-- C96, what holds: with a new P-TMSI from the network, whose TLLI is not the value "unassigned", the mobile
station is registered, and RLC/MAC knows it under the new TLLI and under the old one. -/
theorem c96_new_ptmsi_partial (cfg : GmmCfg) (ptmsi rnd q : Nat) (imsi : List Nat) (hp : ptmsi < 0xffffffff)
    (hq : q < 0x100000000) (hq' : localTlli q ≠ noTlli)
    (prm : AttachPrm) (hw : prm.withImsi = false) (result timer prio : UInt8) (ra : Octets) (hra : ra.length = 6) :
    ∃ s o imsi', stackRun cfg (stack0 ptmsi imsi rnd)
        [⟨.attachReq prm, yes⟩, ⟨.rx (acceptMsg result timer prio ra (some q)), yes⟩] = .ok (s, o) ∧
      s.g.st = .reg ∧ s.g.tlli = localTlli q ∧
      findTlli s.d (localTlli q) = some ⟨0, localTlli q, foreignTlli ptmsi, q, imsi'⟩ ∧
      findTlli s.d (foreignTlli ptmsi) = some ⟨0, localTlli q, foreignTlli ptmsi, q, imsi'⟩ := by
  obtain ⟨s1, o1, e1, h1, h2, h3⟩ := first_attach (rnd := rnd) (imsi := imsi) cfg hp hw
  obtain ⟨g2, e2, n1, n2, -⟩ := rx_accept (cfg := cfg) (ok := stackOk s1 yes) (g := s1.g) (result := result)
    (timer := timer) (prio := prio) hra hq
  have hf : foreignTlli ptmsi ≠ noTlli := by unfold foreignTlli noTlli; omega
  have m1 : (updatePtmsi g2 q).oldTlli = foreignTlli ptmsi := n1.trans h2
  have m2 : (updatePtmsi g2 q).tlli = localTlli q := rfl
  have m3 : (updatePtmsi g2 q).ptmsi = q := rfl
  have m4 : (updatePtmsi g2 q).st = .regInit := n2.trans h1
  generalize updatePtmsi g2 q = g3 at *
  generalize localTlli q = n at *
  generalize foreignTlli ptmsi = t at *
  obtain ⟨r, e3, p1, p2⟩ := accept_end (cfg := cfg) hf hq' m1 m2 m3 m4 h3
  refine ⟨⟨r.g, ⟨1, [⟨0, n, t, q, s1.g.imsi⟩]⟩⟩, o1 ++ (r.out ++ []), s1.g.imsi, ?_, ?_, ?_, ?_, ?_⟩
  · unfold stackRun
    rw [e1]
    dsimp only
    unfold stackRun stackStep
    dsimp only
    rw [e2, e3]
    dsimp only
    rw [p2]
    rfl
  · rw [p1]; rfl
  · rw [p1]; exact m2
  · exact one_find ⟨0, n, t, q, s1.g.imsi⟩ (.inl rfl)
  · exact one_find ⟨0, n, t, q, s1.g.imsi⟩ (.inr rfl)

unseal localTlli foreignTlli

/-- The hypotheses are met. -/
example : ∃ s o, stackRun defaultCfg (stack0 0x1234 [2, 4, 1] 0)
    [⟨.attachReq prm0, yes⟩, ⟨.rx (acceptMsg 1 0x2a 0x44 [0x32, 0xf4, 0x07, 0x00, 0x05, 0x00] (some 0xea711b41)), yes⟩] = .ok (s, o) ∧
    s.g.st = .reg := by
  obtain ⟨s, o, _, h1, h2, _⟩ := c96_new_ptmsi_partial defaultCfg 0x1234 0 0xea711b41 [2, 4, 1] (by decide) (by decide) (by decide) prm0 rfl
    1 0x2a 0x44 [0x32, 0xf4, 0x07, 0x00, 0x05, 0x00] rfl
  exact ⟨s, o, h1, h2⟩

end Verif.Props
