import Verif.Sm.Entity
/-!
# Lemmas about the session management entities
-/
namespace Verif.Sm
open Verif Verif.Gsm

/-- The PDP context of a mobile station at an NSAPI. -/
def SmCtx.slot (c : SmCtx) (id i : Nat) : Option Sme := (c.ms id).pdp i

theorem slot_put (c : SmCtx) (id i : Nat) (o : Option Sme) (x y : Nat) :
    (c.put id i o).slot x y = if x = id ∧ y = i then o else c.slot x y := by
  unfold SmCtx.slot SmCtx.put SmCtx.setMs SmMs.setPdp
  simp only
  by_cases hx : x = id
  · by_cases hy : y = i
    · simp [hx, hy]
    · simp [hx, hy]
  · simp [hx]

theorem slot_setMs_same (c : SmCtx) (id : Nat) (m : SmMs) (h : m.pdp = (c.ms id).pdp) (x y : Nat) :
    (c.setMs id m).slot x y = c.slot x y := by
  unfold SmCtx.slot SmCtx.setMs
  simp only
  by_cases hx : x = id
  · simp [hx, h]
  · simp [hx]

/-- What a message from the network leaves alone in a context. -/
structure Keeps (s s' : Sme) : Prop where
  sess : s'.sess = s.sess
  nsapi : s'.nsapi = s.nsapi
  st : s'.st = s.st
  timer : s'.timer = s.timer
  attempts : s'.attempts = s.attempts
  qosLen : s'.qosLen = s.qosLen
  ti : s'.ti = s.ti
  apn : s'.apn = s.apn

theorem Keeps.refl (s : Sme) : Keeps s s := ⟨rfl, rfl, rfl, rfl, rfl, rfl, rfl, rfl⟩

theorem Keeps.trans {a b c : Sme} (h : Keeps a b) (k : Keeps b c) : Keeps a c :=
  ⟨k.sess.trans h.sess, k.nsapi.trans h.nsapi, k.st.trans h.st, k.timer.trans h.timer,
    k.attempts.trans h.attempts, k.qosLen.trans h.qosLen, k.ti.trans h.ti, k.apn.trans h.apn⟩

theorem takePco_keeps (s : Sme) (b : Octets) (ies : List Ie) : Keeps s (takePco s b ies).1 := by
  unfold takePco
  split
  · exact Keeps.refl s
  · split
    · exact Keeps.refl s
    · split
      · exact ⟨rfl, rfl, rfl, rfl, rfl, rfl, rfl, rfl⟩
      · exact Keeps.refl s
      · exact Keeps.refl s

theorem takeAddr_keeps (s : Sme) (b : Octets) (ies : List Ie) : Keeps s (takeAddr s b ies).1 := by
  unfold takeAddr
  split
  · exact Keeps.refl s
  · split
    · exact ⟨rfl, rfl, rfl, rfl, rfl, rfl, rfl, rfl⟩
    · exact ⟨rfl, rfl, rfl, rfl, rfl, rfl, rfl, rfl⟩
    · exact Keeps.refl s

theorem ackTlvs_keeps (s : Sme) (b : Octets) (pos : Nat) : Keeps s (ackTlvs s b pos).1 := by
  unfold ackTlvs
  split
  · exact Keeps.refl s
  · exact Keeps.refl s
  · rename_i ies _
    have h := takeAddr_keeps s b ies
    split
    · rename_i s1 _ hs
      rw [hs] at h
      exact h.trans (takePco_keeps s1 b ies)
    · exact h

theorem rxAckBody_keeps (s : Sme) (b : Octets) : Keeps s (rxAckBody s b).1 := by
  unfold rxAckBody
  split
  · exact Keeps.refl s
  · unfold rdK
    split
    · split
      · dsimp only
        split
        · exact ⟨rfl, rfl, rfl, rfl, rfl, rfl, rfl, rfl⟩
        · split
          · exact ⟨rfl, rfl, rfl, rfl, rfl, rfl, rfl, rfl⟩
          · split
            · exact ⟨rfl, rfl, rfl, rfl, rfl, rfl, rfl, rfl⟩
            · split
              · split
                · refine Keeps.trans ?_ (ackTlvs_keeps _ _ _)
                  exact ⟨rfl, rfl, rfl, rfl, rfl, rfl, rfl, rfl⟩
                · exact ⟨rfl, rfl, rfl, rfl, rfl, rfl, rfl, rfl⟩
              · exact ⟨rfl, rfl, rfl, rfl, rfl, rfl, rfl, rfl⟩
              · exact ⟨rfl, rfl, rfl, rfl, rfl, rfl, rfl, rfl⟩
      · exact ⟨rfl, rfl, rfl, rfl, rfl, rfl, rfl, rfl⟩
      · exact ⟨rfl, rfl, rfl, rfl, rfl, rfl, rfl, rfl⟩
    · exact Keeps.refl s
    · exact Keeps.refl s

theorem rejTlvs_keeps (s : Sme) (b : Octets) (pos : Nat) : Keeps s (rejTlvs s b pos).1 := by
  unfold rejTlvs
  split
  · exact Keeps.refl s
  · exact Keeps.refl s
  · exact takePco_keeps s b _

theorem rxRejBody_keeps (s : Sme) (b : Octets) : Keeps s (rxRejBody s b).1 := by
  unfold rxRejBody
  split
  · exact Keeps.refl s
  · unfold rdK
    split
    · split
      · have h := rejTlvs_keeps s b 3
        split <;> (rename_i hs; rw [hs] at h; exact h)
      · exact Keeps.refl s
    · exact Keeps.refl s
    · exact Keeps.refl s

/-- What `smFsm` does when the event is permitted. -/
theorem smFsm_some {id : Nat} {m : SmMs} {s s' : Sme} {ev : SmEv} {o : List SmOut}
    (h : smFsm id m s ev = .ok (some (s', o))) :
    (ev = .txAct ∧ s.st = .inactive ∧ s' = { s with st := .pending, timer := .t3380 } ∧
      o = [establishOut m s]) ∨
    (s.st = .pending ∧ s' = s ∧ (ev = .estCnf ∧ o = [txActReq id s] ∨ ev = .rxAcc ∧ o = [snsmActOut m s])) ∨
    ((ev = .estRej ∧ s.st = .pending ∨ ev = .release ∧ s.st ≠ .inactive) ∧ s' = toInactive s ∧ o = []) ∨
    (∃ cause x, ev = .rxRej cause ∧ s.st = .pending ∧ s' = toInactive s ∧ actCnf id s cause = .ok x ∧
      o = [x]) ∨
    (∃ x, ev = .nsapiActivated ∧ s.st = .pending ∧ s' = toActive s ∧ actCnf id s 0 = .ok x ∧ o = [x]) := by
  unfold smFsm at h
  split at h
  · rename_i hst; simp only [toPending, Res.ok.injEq, Option.some.injEq, Prod.mk.injEq] at h
    exact Or.inl ⟨rfl, hst, h.1.symm, h.2.symm⟩
  · rename_i hst; simp only [Res.ok.injEq, Option.some.injEq, Prod.mk.injEq] at h
    exact Or.inr (Or.inl ⟨hst, h.1.symm, Or.inl ⟨rfl, h.2.symm⟩⟩)
  · rename_i hst; simp only [Res.ok.injEq, Option.some.injEq, Prod.mk.injEq] at h
    exact Or.inr (Or.inr (Or.inl ⟨Or.inl ⟨rfl, hst⟩, h.1.symm, h.2.symm⟩))
  · rename_i cause hst
    unfold withCnf at h
    split at h
    · rename_i x hx; simp only [Res.ok.injEq, Option.some.injEq, Prod.mk.injEq] at h
      exact Or.inr (Or.inr (Or.inr (Or.inl ⟨cause, x, rfl, hst, h.1.symm, hx, h.2.symm⟩)))
    · cases h
    · cases h
  · rename_i hst; simp only [Res.ok.injEq, Option.some.injEq, Prod.mk.injEq] at h
    exact Or.inr (Or.inl ⟨hst, h.1.symm, Or.inr ⟨rfl, h.2.symm⟩⟩)
  · rename_i hst
    unfold withCnf at h
    split at h
    · rename_i x hx; simp only [Res.ok.injEq, Option.some.injEq, Prod.mk.injEq] at h
      exact Or.inr (Or.inr (Or.inr (Or.inr ⟨x, rfl, hst, h.1.symm, hx, h.2.symm⟩)))
    · cases h
    · cases h
  · rename_i hst; simp only [Res.ok.injEq, Option.some.injEq, Prod.mk.injEq] at h
    exact Or.inr (Or.inr (Or.inl ⟨Or.inr ⟨rfl, by rw [hst]; decide⟩, h.1.symm, h.2.symm⟩))
  · rename_i hst; simp only [Res.ok.injEq, Option.some.injEq, Prod.mk.injEq] at h
    exact Or.inr (Or.inr (Or.inl ⟨Or.inr ⟨rfl, by rw [hst]; decide⟩, h.1.symm, h.2.symm⟩))
  · cases h

theorem pcoToPrim_not_err (s : Sme) (e : Errno) : pcoToPrim s ≠ .err e := by
  unfold pcoToPrim; split <;> simp

theorem actCnf_not_err (id : Nat) (s : Sme) (k : Nat) (e : Errno) : actCnf id s k ≠ .err e := by
  unfold actCnf pcoToPrim
  split
  · simp only [Res.bind_ok]; split <;> simp
  · simp

theorem smFsm_not_err (id : Nat) (m : SmMs) (s : Sme) (ev : SmEv) (e : Errno) : smFsm id m s ev ≠ .err e := by
  unfold smFsm
  split <;> try simp
  · unfold withCnf
    split
    · simp
    · rename_i h; exact absurd h (actCnf_not_err _ _ _ _)
    · simp
  · unfold withCnf
    split
    · simp
    · rename_i h; exact absurd h (actCnf_not_err _ _ _ _)
    · simp

/-- A confirmation names the mobile station and the NSAPI. -/
theorem actCnf_ok {id : Nat} {s : Sme} {k : Nat} {x : SmOut} (h : actCnf id s k = .ok x) :
    s.pco.length ≤ pcoPrimMax ∧
    (k = 0 ∧ x = .actAcc id s.nsapi s.pco s.addr s.radioPrio (s.qos.take s.qosLen) ∨
     k ≠ 0 ∧ x = .actRej id s.nsapi s.pco k) := by
  unfold actCnf pcoToPrim at h
  split at h
  · rename_i hl
    simp only [Res.bind_ok] at h
    split at h
    · cases h; exact ⟨hl, Or.inl ⟨by assumption, rfl⟩⟩
    · cases h; exact ⟨hl, Or.inr ⟨by assumption, rfl⟩⟩
  · cases h

/-- What one step does to the PDP context of mobile station `id` at NSAPI `i`. -/
inductive Touch (id i : Nat) : SmIn → Option Sme → Option Sme → List SmOut → Option Errno → Prop where
  /-- an activation is accepted and begins -/
  | start (r : ActReq) (m : SmMs) (s : Sme) : r.msId = id → r.nsapi = i → s.st = .pending →
      s.timer = .t3380 → s.attempts = 0 → s.nsapi = i → s.qos.length = qosMax → s.qosLen ≤ qosMax →
      s.ti = 0 → Touch id i (.actReq r) none (some s) [establishOut m s] none
  /-- nothing that matters for the procedure -/
  | keep (ev : SmIn) (a b : Sme) (o : List SmOut) (rc : Option Errno) : Keeps a b →
      (∀ r, ev ≠ .actReq r) → b.qos.length = a.qos.length →
      (∀ x ∈ o, (∃ k p, x = .unitdataReq k p) ∨ (∃ t n s r q, x = .snsmActInd t n s r q) ∨
        ∃ p, x = .deactInd id i causeReactRqd p) →
      Touch id i ev (some a) (some b) o rc
  /-- the context ends without a confirmation -/
  | drop (ev : SmIn) (a : Sme) (o : List SmOut) : a.st ≠ .inactive →
      ((∃ n, ev = .estRej n) ∧ o = [] ∨ (∃ n, ev = .relInd n) ∧ o = [] ∨
        (∃ t n, ev = .snsmDeactRsp t n) ∧ ∃ p, o = [.deactInd id i causeReactRqd p]) →
      Touch id i ev (some a) (some (toInactive a)) o none
  /-- SNDCP is ready: the context is active and the user told so -/
  | activated (t n : Nat) (a : Sme) : a.st = .pending →
      Touch id i (.snsmActRsp t n) (some a) (some (toActive a))
        [.actAcc id i a.pco a.addr a.radioPrio (a.qos.take a.qosLen)] none
  /-- the network rejects the request -/
  | rejected (n : Nat) (p : Octets) (a b : Sme) (x : SmOut) (cause : Nat) : a.st = .pending → Keeps a b →
      b.qos.length = a.qos.length →
      (rxRejBody a p) = (b, .ok cause) → actCnf id b cause = .ok x →
      Touch id i (.unitdataInd n p) (some a) (some (toInactive b)) [x] none
  /-- T3380 has expired for the last time -/
  | gaveUp (a : Sme) : a.st = .pending → (a.attempts + 1) % 256 = 4 →
      Touch id i (.timeout id i) (some a)
        (some (toInactive { a with attempts := (a.attempts + 1) % 256 }))
        [.actRej id i a.pco causeTempOoo] none
  /-- T3380 has expired: try again -/
  | retry (m : SmMs) (a : Sme) : a.st = .pending → (a.attempts + 1) % 256 ≠ 4 →
      Touch id i (.timeout id i) (some a)
        (some { a with attempts := (a.attempts + 1) % 256, st := .pending, timer := .t3380 })
        [establishOut m a] none
  /-- the context is freed -/
  | freed (a : Sme) : a.timer = .free → Touch id i (.timeout id i) (some a) none [] none

/-- How a step changes the table of PDP contexts: not at all, or in one place. -/
def Change (c : SmCtx) (ev : SmIn) (c' : SmCtx) (o : List SmOut) (rc : Option Errno) : Prop :=
  ((∀ x y, c'.slot x y = c.slot x y) ∧ (∀ r, ev = .actReq r → rc ≠ none) ∧
    ∀ x ∈ o, ∃ t n, x = .snsmDeactInd t n) ∨
  ∃ id i s', Touch id i ev (c.slot id i) s' o rc ∧
    ∀ x y, c'.slot x y = if x = id ∧ y = i then s' else c.slot x y

/-- The bookkeeping holds together. -/
structure SmInv (c : SmCtx) : Prop where
  /-- a context is in the place of its NSAPI, of a known mobile station -/
  slot : ∀ id i s, c.slot id i = some s → s.nsapi = i ∧ i < 16 ∧ id ∈ c.order ∧
    s.qos.length = qosMax ∧ s.qosLen ≤ qosMax ∧ s.ti = 0 ∧
    (s.timer = .t3380 ↔ s.st = .pending) ∧ (s.timer = .free ↔ s.st = .inactive) ∧
    (s.st = .pending → s.attempts < 4)

theorem smInit_inv : SmInv smInit := by
  constructor
  intro id i s h
  simp [smInit, SmCtx.slot, freshMs] at h

theorem bySess_some {c : SmCtx} {sess id i : Nat} (h : c.bySess sess = some (id, i)) :
    id ∈ c.order ∧ i < 16 ∧ ∃ s, c.slot id i = some s ∧ s.sess = sess := by
  unfold SmCtx.bySess at h
  obtain ⟨x, hx, h1⟩ := List.exists_of_findSome?_eq_some h
  cases h2 : (c.ms x).slotOf sess with
  | none => rw [h2] at h1; simp at h1
  | some j =>
    rw [h2] at h1
    simp only [Option.map_some, Option.some.injEq, Prod.mk.injEq] at h1
    obtain ⟨rfl, rfl⟩ := h1
    unfold SmMs.slotOf at h2
    have h3 := List.mem_of_find?_eq_some h2
    have h4 := List.find?_some h2
    refine ⟨hx, by simpa using h3, ?_⟩
    cases h5 : (c.ms x).pdp j with
    | none => rw [h5] at h4; simp at h4
    | some s =>
      rw [h5] at h4
      exact ⟨s, h5, by simpa using h4⟩

theorem withSess_cases {c : SmCtx} {sess : Nat} {k : Nat → Nat → Sme → SmRes} {r : SmRes}
    (h : withSess c sess k = r) :
    r = .ok (c, [], some .einval) ∨
    ∃ id i s, c.bySess sess = some (id, i) ∧ c.slot id i = some s ∧ s.sess = sess ∧ id ∈ c.order ∧ i < 16 ∧
      k id i s = r := by
  unfold withSess at h
  cases hb : c.bySess sess with
  | none => rw [hb] at h; exact Or.inl h.symm
  | some q =>
    obtain ⟨id, i⟩ := q
    obtain ⟨h1, h2, s, h3, h4⟩ := bySess_some hb
    rw [hb] at h
    simp only at h
    have h3' : (c.ms id).pdp i = some s := h3
    rw [h3'] at h
    exact Or.inr ⟨id, i, s, rfl, h3, h4, h1, h2, h⟩

theorem withNsapi_cases {c : SmCtx} {tlli n : Nat} {k : Nat → Nat → Sme → SmRes} {r : SmRes}
    (h : withNsapi c tlli n k = r) :
    r = .ok (c, [], some .enoent) ∨ r = .ub .assertFail ∨
    ∃ id s, c.msByTlli tlli = some id ∧ c.slot id n = some s ∧ k id n s = r := by
  unfold withNsapi at h
  cases hb : c.msByTlli tlli with
  | none => rw [hb] at h; exact Or.inl h.symm
  | some id =>
    rw [hb] at h
    simp only at h
    split at h
    · cases h3 : (c.ms id).pdp n with
      | none => rw [h3] at h; exact Or.inl h.symm
      | some s => rw [h3] at h; exact Or.inr (Or.inr ⟨id, s, rfl, h3, h⟩)
    · exact Or.inr (Or.inl h.symm)

theorem dispatch_ok {c c' : SmCtx} {id i : Nat} {s : Sme} {ev : SmEv} {pre o : List SmOut}
    {rc : Option Errno} (h : smDispatch c id i s ev pre = .ok (c', o, rc)) :
    (∃ s' o', smFsm id (c.ms id) s ev = .ok (some (s', o')) ∧ c' = c.put id i (some s') ∧ o = pre ++ o' ∧
      rc = none) ∨
    (smFsm id (c.ms id) s ev = .ok none ∧ c' = c.put id i (some s) ∧ o = pre ∧ rc = some .eperm) := by
  unfold smDispatch at h
  split at h
  · rename_i s' o' hf
    cases h; exact Or.inl ⟨s', o', hf, rfl, rfl, rfl⟩
  · rename_i hf
    cases h; exact Or.inr ⟨hf, rfl, rfl, rfl⟩
  · rename_i hf; exact absurd hf (smFsm_not_err _ _ _ _ _)
  · cases h

theorem Keeps.qos_ack (s : Sme) (b : Octets) (h : s.qos.length = qosMax) :
    (rxAckBody s b).1.qos.length = s.qos.length := by
  have tp : ∀ (s : Sme) ies, (takePco s b ies).1.qos = s.qos := by
    intro s ies; unfold takePco; split
    · rfl
    · split
      · rfl
      · split <;> rfl
  have ta : ∀ (s : Sme) ies, (takeAddr s b ies).1.qos = s.qos := by
    intro s ies; unfold takeAddr; split
    · rfl
    · split <;> rfl
  have at_ : ∀ (s : Sme) pos, (ackTlvs s b pos).1.qos = s.qos := by
    intro s pos; unfold ackTlvs; split
    · rfl
    · rfl
    · rename_i ies _
      have h := ta s ies
      split
      · rename_i s1 _ hs
        rw [hs] at h
        rw [tp s1 ies]; exact h
      · exact h
  unfold rxAckBody
  split
  · rfl
  · unfold rdK
    split
    · split
      · dsimp only
        split
        · rfl
        · split
          · rfl
          · rename_i hq hl
            have hlen : ∀ k, ((b.drop 4).take k ++ s.qos.drop k).length = s.qos.length ∨
                k > qosMax ∨ b.length < 4 + k := by
              intro k
              by_cases h1 : k > qosMax
              · exact Or.inr (Or.inl h1)
              · by_cases h2 : b.length < 4 + k
                · exact Or.inr (Or.inr h2)
                · left; simp [h]; unfold qosMax at *; omega
            have hl2 := (hlen _).resolve_right (fun hh => hh.elim (fun h => hq h) (fun h => hl h))
            split
            · exact hl2
            · split
              · split
                · rw [at_]; exact hl2
                · exact hl2
              · exact hl2
              · exact hl2
      · rfl
      · rfl
    · rfl
    · rfl

theorem rej_qos (s : Sme) (b : Octets) : (rxRejBody s b).1.qos = s.qos := by
  have tp : ∀ (s : Sme) ies, (takePco s b ies).1.qos = s.qos := by
    intro s ies; unfold takePco; split
    · rfl
    · split
      · rfl
      · split <;> rfl
  have rt : ∀ pos, (rejTlvs s b pos).1.qos = s.qos := by
    intro pos; unfold rejTlvs; split
    · rfl
    · rfl
    · exact tp s _
  unfold rxRejBody
  split
  · rfl
  · unfold rdK
    split
    · split
      · have h := rt 3
        split <;> (rename_i hs; rw [hs] at h; exact h)
      · rfl
    · rfl
    · rfl

theorem rx_change {c c' : SmCtx} (hi : SmInv c) {sess id i : Nat} {s : Sme} (hs : c.slot id i = some s)
    {b : Octets} {o : List SmOut} {rc : Option Errno} (h : smRx c id i s b = .ok (c', o, rc)) :
    c'.order = c.order ∧ Change c (.unitdataInd sess b) c' o rc := by
  have hq := (hi.slot id i s hs).2.2.2.1
  have hn := (hi.slot id i s hs).1
  have same : ∀ e, Res.ok (c, ([] : List SmOut), some e) = (.ok (c', o, rc) : SmRes) →
      c'.order = c.order ∧ Change c (.unitdataInd sess b) c' o rc := by
    intro e he
    cases he
    exact ⟨rfl, Or.inl ⟨fun _ _ => rfl, fun r hr => by (cases hr), fun x hx => by simp at hx⟩⟩
  unfold smRx at h
  split at h
  · exact same _ h
  · split at h
    · exact same _ h
    · cases h
    · split at h
      · have hk := rxAckBody_keeps s b
        have hql := Keeps.qos_ack s b hq
        split at h
        · rename_i s' _ hb
          rw [hb] at hk hql
          rcases dispatch_ok h with ⟨s2, o2, hf, rfl, rfl, rfl⟩ | ⟨hf, rfl, rfl, rfl⟩
          · rcases smFsm_some hf with ⟨h1, _⟩ | ⟨_, rfl, ⟨h1, _⟩ | ⟨_, rfl⟩⟩ | ⟨⟨h1, _⟩ | ⟨h1, _⟩, _⟩ |
              ⟨_, _, h1, _⟩ | ⟨_, h1, _⟩ <;> try (cases h1)
            refine ⟨rfl, Or.inr ⟨id, i, _, ?_, slot_put _ _ _ _⟩⟩
            rw [hs]
            refine Touch.keep _ _ _ _ _ hk (fun r hr => by cases hr) hql ?_
            intro x hx
            simp [snsmActOut] at hx
            subst hx
            exact Or.inr (Or.inl ⟨_, _, _, _, _, rfl⟩)
          · refine ⟨rfl, Or.inr ⟨id, i, _, ?_, slot_put _ _ _ _⟩⟩
            rw [hs]
            exact Touch.keep _ _ _ _ _ hk (fun r hr => by cases hr) hql (fun x hx => by simp at hx)
        · rename_i s' e hb
          rw [hb] at hk hql
          cases h
          refine ⟨rfl, Or.inr ⟨id, i, _, ?_, slot_put _ _ _ _⟩⟩
          rw [hs]
          exact Touch.keep _ _ _ _ _ hk (fun r hr => by cases hr) hql (fun x hx => by simp at hx)
        · cases h
      · split at h
        · have hk := rxRejBody_keeps s b
          have hql : (rxRejBody s b).1.qos.length = s.qos.length := by rw [rej_qos]
          split at h
          · rename_i s' cause hb
            rw [hb] at hk hql
            rcases dispatch_ok h with ⟨s2, o2, hf, rfl, rfl, rfl⟩ | ⟨hf, rfl, rfl, rfl⟩
            · rcases smFsm_some hf with ⟨h1, _⟩ | ⟨_, _, ⟨h1, _⟩ | ⟨h1, _⟩⟩ | ⟨⟨h1, _⟩ | ⟨h1, _⟩, _⟩ |
                ⟨k, x, h1, h2, rfl, h3, rfl⟩ | ⟨_, h1, _⟩ <;> try (cases h1)
              refine ⟨rfl, Or.inr ⟨id, i, _, ?_, slot_put _ _ _ _⟩⟩
              rw [hs]
              have h2' : s'.st = SmSt.pending := h2
              exact Touch.rejected _ _ _ _ _ _ (by rw [← hk.st]; exact h2') hk hql hb h3
            · refine ⟨rfl, Or.inr ⟨id, i, _, ?_, slot_put _ _ _ _⟩⟩
              rw [hs]
              exact Touch.keep _ _ _ _ _ hk (fun r hr => by cases hr) hql (fun x hx => by simp at hx)
          · rename_i s' e hb
            rw [hb] at hk hql
            cases h
            refine ⟨rfl, Or.inr ⟨id, i, _, ?_, slot_put _ _ _ _⟩⟩
            rw [hs]
            exact Touch.keep _ _ _ _ _ hk (fun r hr => by cases hr) hql (fun x hx => by simp at hx)
          · cases h
        · exact same _ h

/-- An event other than those of the two messages, dispatched to a context as it is. -/
theorem dispatch_change {c c' : SmCtx} {id i : Nat} {s : Sme} (hs : c.slot id i = some s)
    (hn : s.nsapi = i) {inp : SmIn} {ev : SmEv}
    {pre o : List SmOut} {rc : Option Errno} (h : smDispatch c id i s ev pre = .ok (c', o, rc))
    (hev : (∃ a b d e, inp = .estAcc a b d e) ∧ ev = .estCnf ∧ pre = [] ∨
      (∃ a, inp = .estRej a) ∧ ev = .estRej ∧ pre = [] ∨
      (∃ a, inp = .relInd a) ∧ ev = .release ∧ pre = [] ∨
      (∃ a b, inp = .snsmActRsp a b) ∧ ev = .nsapiActivated ∧ pre = [] ∨
      (∃ a b, inp = .snsmDeactRsp a b) ∧ ev = .release ∧ ∃ p, pre = [.deactInd id i causeReactRqd p]) :
    c'.order = c.order ∧ Change c inp c' o rc := by
  have hnr : ∀ r, inp ≠ .actReq r := by
    rintro r rfl
    rcases hev with ⟨⟨_, _, _, _, h⟩, _⟩ | ⟨⟨_, h⟩, _⟩ | ⟨⟨_, h⟩, _⟩ | ⟨⟨_, _, h⟩, _⟩ | ⟨⟨_, _, h⟩, _⟩ <;> cases h
  have hpre : ∀ x ∈ pre, ∃ p, x = .deactInd id i causeReactRqd p := by
    rcases hev with ⟨_, _, rfl⟩ | ⟨_, _, rfl⟩ | ⟨_, _, rfl⟩ | ⟨_, _, rfl⟩ | ⟨_, _, p, rfl⟩
    · simp
    · simp
    · simp
    · simp
    · intro x hx; exact ⟨p, by simpa using hx⟩
  rcases dispatch_ok h with ⟨s', o', hf, rfl, rfl, rfl⟩ | ⟨hf, rfl, rfl, rfl⟩
  · refine ⟨rfl, Or.inr ⟨id, i, _, ?_, slot_put _ _ _ _⟩⟩
    rw [hs]
    rcases smFsm_some hf with ⟨h1, _⟩ | ⟨hst, rfl, ⟨h1, rfl⟩ | ⟨h1, _⟩⟩ | ⟨h1, rfl, rfl⟩ |
      ⟨_, _, h1, _⟩ | ⟨x, h1, hst, rfl, hx, rfl⟩
    · exfalso
      rcases hev with ⟨_, h, _⟩ | ⟨_, h, _⟩ | ⟨_, h, _⟩ | ⟨_, h, _⟩ | ⟨_, h, _⟩ <;> rw [h] at h1 <;> cases h1
    · refine Touch.keep _ _ _ _ _ (Keeps.refl _) hnr rfl ?_
      intro x hx
      rcases List.mem_append.mp hx with hx | hx
      · exact Or.inr (Or.inr (hpre x hx))
      · simp [txActReq] at hx; subst hx
        exact Or.inl ⟨_, _, rfl⟩
    · exfalso
      rcases hev with ⟨_, h, _⟩ | ⟨_, h, _⟩ | ⟨_, h, _⟩ | ⟨_, h, _⟩ | ⟨_, h, _⟩ <;> rw [h] at h1 <;> cases h1
    · refine Touch.drop _ _ _ ?_ ?_
      · rcases h1 with ⟨_, h⟩ | ⟨_, h⟩
        · rw [h]; decide
        · exact h
      · simp only [List.append_nil]
        rcases hev with ⟨_, h, _⟩ | ⟨h, _, hp⟩ | ⟨h, _, hp⟩ | ⟨_, h, _⟩ | ⟨h, _, hp⟩
        · subst h; rcases h1 with ⟨h, _⟩ | ⟨h, _⟩ <;> cases h
        · exact Or.inl ⟨h, hp⟩
        · exact Or.inr (Or.inl ⟨h, hp⟩)
        · subst h; rcases h1 with ⟨h, _⟩ | ⟨h, _⟩ <;> cases h
        · exact Or.inr (Or.inr ⟨h, hp⟩)
    · exfalso
      rcases hev with ⟨_, h, _⟩ | ⟨_, h, _⟩ | ⟨_, h, _⟩ | ⟨_, h, _⟩ | ⟨_, h, _⟩ <;> rw [h] at h1 <;> cases h1
    · rcases hev with ⟨_, h, _⟩ | ⟨_, h, _⟩ | ⟨_, h, _⟩ | ⟨⟨a, b, rfl⟩, h, rfl⟩ | ⟨_, h, _⟩
      · subst h; cases h1
      · subst h; cases h1
      · subst h; cases h1
      · obtain ⟨_, ⟨_, rfl⟩ | ⟨hk, _⟩⟩ := actCnf_ok hx
        · simp only [List.nil_append]
          rw [hn]
          exact Touch.activated _ _ _ hst
        · exact absurd rfl hk
      · subst h; cases h1
  · refine ⟨rfl, Or.inr ⟨id, i, _, ?_, slot_put _ _ _ _⟩⟩
    rw [hs]
    exact Touch.keep _ _ _ _ _ (Keeps.refl _) hnr rfl (fun x hx => Or.inr (Or.inr (hpre x hx)))

theorem actReq_change {c c' : SmCtx} (hi : SmInv c) {r : ActReq} {o : List SmOut} {rc : Option Errno}
    (h : actReqStep c r = .ok (c', o, rc)) :
    (∀ x ∈ c.order, x ∈ c'.order) ∧ (rc = none → r.msId ∈ c'.order) ∧ (rc = none → r.nsapi < 16) ∧
    Change c (.actReq r) c' o rc := by
  have key : ∀ d : SmCtx, (∀ x y, d.slot x y = c.slot x y) → r.msId ∈ d.order →
      (∀ x ∈ c.order, x ∈ d.order) → r.qos.length ≤ qosMax → startAct d r = .ok (c', o, rc) →
      (∀ x ∈ c.order, x ∈ c'.order) ∧ (rc = none → r.msId ∈ c'.order) ∧ (rc = none → r.nsapi < 16) ∧
      Change c (.actReq r) c' o rc := by
    intro d hd hm hord hql h
    unfold startAct at h
    split at h
    · cases h
    · rename_i h16
      split at h
      · cases h
      · rename_i hnone
        have hnone' : d.slot r.msId r.nsapi = none := by
          unfold SmCtx.slot
          cases hh : (d.ms r.msId).pdp r.nsapi with
          | none => rfl
          | some s => rw [hh] at hnone; simp at hnone
        rcases dispatch_ok h with ⟨s', o', hf, rfl, rfl, rfl⟩ | ⟨hf, _⟩
        · rcases smFsm_some hf with ⟨_, _, rfl, rfl⟩ | ⟨_, _, ⟨h1, _⟩ | ⟨h1, _⟩⟩ | ⟨⟨h1, _⟩ | ⟨h1, _⟩, _⟩ |
            ⟨_, _, h1, _⟩ | ⟨_, h1, _⟩ <;> try (cases h1)
          refine ⟨hord, fun _ => hm, fun _ => by omega, Or.inr ⟨r.msId, r.nsapi,
            some { newSme d.nextSess r with st := .pending, timer := .t3380 }, ?_, ?_⟩⟩
          · rw [← hd, hnone']
            refine Touch.start r _ _ rfl rfl rfl rfl rfl rfl ?_ hql rfl
            simp [newSme]; omega
          · intro x y
            rw [slot_put]
            congr 1
            rw [← hd]
            exact slot_setMs_same d r.msId { d.ms r.msId with ptmsi := r.ptmsi, ptmsiSig := r.ptmsiSig } rfl x y
        · simp [smFsm, newSme] at hf
  unfold actReqStep at h
  split at h
  · cases h
  · split at h
    · cases h
    · split at h
      · cases h
      · split at h
        · rename_i hms
          split at h
          · split at h
            · cases h
              exact ⟨fun x hx => hx, fun h => by (cases h), fun h => by (cases h),
                Or.inl ⟨fun _ _ => rfl, fun _ _ => by simp, fun x hx => by simp at hx⟩⟩
            · exact key c (fun _ _ => rfl) (by simpa [SmCtx.hasMs] using hms) (fun x hx => hx) (by omega) h
          · cases h
        · rename_i hms
          refine key _ ?_ ?_ ?_ (by omega) h
          · intro x y
            unfold SmCtx.slot SmCtx.setMs
            simp only
            by_cases hx : x = r.msId
            · rw [if_pos hx]
              subst hx
              cases hh : (c.ms r.msId).pdp y with
              | none => rfl
              | some s =>
                have := (hi.slot r.msId y s hh).2.2.1
                exact absurd (by simpa [SmCtx.hasMs] using this) hms
            · rw [if_neg hx]
          · simp
          · intro x hx; exact List.mem_cons_of_mem _ hx

theorem timeout_change {c c' : SmCtx} (hi : SmInv c) {id i : Nat} {s : Sme} (hs : c.slot id i = some s)
    {o : List SmOut} {rc : Option Errno} (h : smTimeout c id i s = .ok (c', o, rc)) :
    c'.order = c.order ∧ Change c (.timeout id i) c' o rc := by
  have hn := (hi.slot id i s hs).1
  unfold smTimeout at h
  split at h
  · cases h
    exact ⟨rfl, Or.inl ⟨fun _ _ => rfl, fun r hr => by (cases hr), fun x hx => by simp at hx⟩⟩
  · rename_i ht
    cases h
    rw [hn]
    refine ⟨rfl, Or.inr ⟨id, i, _, ?_, slot_put _ _ _ _⟩⟩
    rw [hs]
    exact Touch.freed _ ht
  · dsimp only at h
    split at h
    · cases h
    · rename_i hst
      have hst' : s.st = .pending := by simpa using hst
      split at h
      · rename_i h4
        rcases dispatch_ok h with ⟨s', o', hf, rfl, rfl, rfl⟩ | ⟨hf, _⟩
        · rcases smFsm_some hf with ⟨h1, _⟩ | ⟨_, _, ⟨h1, _⟩ | ⟨h1, _⟩⟩ | ⟨⟨h1, _⟩ | ⟨h1, _⟩, _⟩ |
            ⟨k, x, h1, h2, rfl, hx, rfl⟩ | ⟨_, h1, _⟩ <;> try (cases h1)
          refine ⟨rfl, Or.inr ⟨id, i, _, ?_, slot_put _ _ _ _⟩⟩
          rw [hs]
          obtain ⟨_, ⟨h, _⟩ | ⟨_, rfl⟩⟩ := actCnf_ok hx
          · exact absurd h (by decide)
          · have e : SmOut.actRej id s.nsapi s.pco causeTempOoo = .actRej id i s.pco causeTempOoo := by rw [hn]
            show Touch id i _ (some s) _ [SmOut.actRej id s.nsapi s.pco causeTempOoo] none
            rw [e]
            exact Touch.gaveUp _ hst' h4
        · simp [smFsm, hst', withCnf] at hf
          split at hf <;> cases hf
      · rename_i h4
        cases h
        refine ⟨rfl, Or.inr ⟨id, i, _, ?_, slot_put _ _ _ _⟩⟩
        rw [hs]
        exact Touch.retry (c.ms id) s hst' h4

/-- Every step changes at most one PDP context, in one of the ways of `Touch`. -/
theorem step_change {c c' : SmCtx} (hi : SmInv c) {ev : SmIn} {o : List SmOut} {rc : Option Errno}
    (h : smStep c ev = .ok (c', o, rc)) :
    (∀ x ∈ c.order, x ∈ c'.order) ∧ Change c ev c' o rc ∧
    (∀ r, ev = .actReq r → rc = none → r.msId ∈ c'.order ∧ r.nsapi < 16) := by
  have wrap : ∀ {c'' : SmCtx}, c''.order = c.order ∧ Change c ev c'' o rc → (∀ r, ev ≠ .actReq r) →
      (∀ x ∈ c.order, x ∈ c''.order) ∧ Change c ev c'' o rc ∧
      (∀ r, ev = .actReq r → rc = none → r.msId ∈ c''.order ∧ r.nsapi < 16) := by
    intro c'' ⟨h1, h2⟩ h3
    exact ⟨fun x hx => by rw [h1]; exact hx, h2, fun r hr => absurd hr (h3 r)⟩
  have quiet : ∀ {e : Option Errno}, (.ok (c, [], e) : SmRes) = .ok (c', o, rc) → (∀ r, ev ≠ .actReq r) →
      c'.order = c.order ∧ Change c ev c' o rc := by
    intro e he hne
    cases he
    exact ⟨rfl, Or.inl ⟨fun _ _ => rfl, fun r hr => absurd hr (hne r), fun x hx => by simp at hx⟩⟩
  cases ev with
  | actReq r =>
    obtain ⟨h1, h2, h3, h4⟩ := actReq_change hi (show actReqStep c r = _ from h)
    exact ⟨h1, h4, fun r' hr hrc => by cases hr; exact ⟨h2 hrc, h3 hrc⟩⟩
  | estAcc sess p g t =>
    refine wrap ?_ (fun r hr => by cases hr)
    rcases withSess_cases (show withSess c sess _ = _ from h) with h1 | ⟨id, i, s, _, hs, _, _, _, h1⟩
    · exact quiet h1.symm (fun r hr => by cases hr)
    · have hsl : ∀ x y, (c.setMs id (withGmm (c.ms id) p g t)).slot x y = c.slot x y :=
        slot_setMs_same _ _ _ rfl
      obtain ⟨h2, h3⟩ := dispatch_change (inp := .estAcc sess p g t) (by rw [hsl]; exact hs) (hi.slot id i s hs).1 h1
        (Or.inl ⟨⟨_, _, _, _, rfl⟩, rfl, rfl⟩)
      refine ⟨h2, ?_⟩
      rcases h3 with ⟨a, b, d⟩ | ⟨id', i', s', a, b⟩
      · exact Or.inl ⟨fun x y => (a x y).trans (hsl x y), b, d⟩
      · refine Or.inr ⟨id', i', s', by rw [← hsl]; exact a, fun x y => ?_⟩
        rw [b, hsl]
  | estRej sess =>
    refine wrap ?_ (fun r hr => by cases hr)
    rcases withSess_cases (show withSess c sess _ = _ from h) with h1 | ⟨id, i, s, _, hs, _, _, _, h1⟩
    · exact quiet h1.symm (fun r hr => by cases hr)
    · exact dispatch_change hs (hi.slot id i s hs).1 h1 (Or.inr (Or.inl ⟨⟨_, rfl⟩, rfl, rfl⟩))
  | relInd sess =>
    refine wrap ?_ (fun r hr => by cases hr)
    rcases withSess_cases (show withSess c sess _ = _ from h) with h1 | ⟨id, i, s, _, hs, _, _, _, h1⟩
    · exact quiet h1.symm (fun r hr => by cases hr)
    · exact dispatch_change hs (hi.slot id i s hs).1 h1 (Or.inr (Or.inr (Or.inl ⟨⟨_, rfl⟩, rfl, rfl⟩)))
  | unitdataInd sess b =>
    refine wrap ?_ (fun r hr => by cases hr)
    rcases withSess_cases (show withSess c sess _ = _ from h) with h1 | ⟨id, i, s, _, hs, _, _, _, h1⟩
    · exact quiet h1.symm (fun r hr => by cases hr)
    · exact rx_change hi hs h1
  | modifyInd sess p g t status =>
    refine wrap ?_ (fun r hr => by cases hr)
    rcases withSess_cases (show withSess c sess _ = _ from h) with h1 | ⟨id, i, s, _, hs, _, _, _, h1⟩
    · exact quiet h1.symm (fun r hr => by cases hr)
    · simp only [Res.ok.injEq, Prod.mk.injEq] at h1
      obtain ⟨rfl, rfl, rfl⟩ := h1
      refine ⟨rfl, Or.inl ⟨slot_setMs_same _ _ _ rfl, fun r hr => by (cases hr), ?_⟩⟩
      intro x hx
      cases status with
      | none => simp at hx
      | some st =>
        simp only [statusOuts, List.mem_filterMap] at hx
        obtain ⟨j, _, hj⟩ := hx
        split at hj
        · split at hj
          · cases hj; exact ⟨_, _, rfl⟩
          · cases hj
        · cases hj
  | snsmActRsp tlli n =>
    simp only [smStep] at h
    refine wrap ?_ (fun r hr => by cases hr)
    rcases withNsapi_cases h with h1 | h1 | ⟨id, s, _, hs, h1⟩
    · exact quiet h1.symm (fun r hr => by cases hr)
    · cases h1
    · exact dispatch_change hs (hi.slot id n s hs).1 h1 (Or.inr (Or.inr (Or.inr (Or.inl ⟨⟨_, _, rfl⟩, rfl, rfl⟩))))
  | snsmDeactRsp tlli n =>
    simp only [smStep] at h
    refine wrap ?_ (fun r hr => by cases hr)
    rcases withNsapi_cases h with h1 | h1 | ⟨id, s, _, hs, h1⟩
    · exact quiet h1.symm (fun r hr => by cases hr)
    · cases h1
    · have hn := (hi.slot id n s hs).1
      split at h1
      · rename_i x hx
        refine dispatch_change hs hn h1 (Or.inr (Or.inr (Or.inr (Or.inr ⟨⟨_, _, rfl⟩, rfl, ?_⟩))))
        unfold deactOut pcoToPrim at hx
        split at hx
        · simp only [Res.bind_ok, Res.ok.injEq] at hx
          subst hx
          exact ⟨s.pco, by rw [hn]⟩
        · cases hx
      · exact quiet h1 (fun r hr => by cases hr)
      · cases h1
  | timeout id i =>
    refine wrap ?_ (fun r hr => by cases hr)
    have h' : (if c.hasMs id then
      match (c.ms id).pdp i with
      | some s => smTimeout c id i s
      | none => .ok (c, [], none)
      else .ok (c, [], none)) = (.ok (c', o, rc) : SmRes) := h
    split at h'
    · split at h'
      · rename_i s hs
        exact timeout_change hi hs h'
      · exact quiet h' (fun r hr => by cases hr)
    · exact quiet h' (fun r hr => by cases hr)

theorem step_inv {c c' : SmCtx} (hi : SmInv c) {ev : SmIn} {o : List SmOut} {rc : Option Errno}
    (h : smStep c ev = .ok (c', o, rc)) : SmInv c' := by
  obtain ⟨hord, hch, hreq⟩ := step_change hi h
  constructor
  rcases hch with ⟨hs, _, _⟩ | ⟨id, i, s', ht, hs⟩
  · intro x y s hsl
    rw [hs] at hsl
    obtain ⟨a, b, d, e⟩ := hi.slot x y s hsl
    exact ⟨a, b, hord _ d, e⟩
  · intro x y s hsl
    rw [hs] at hsl
    split at hsl
    · rename_i hxy
      obtain ⟨rfl, rfl⟩ := hxy
      subst hsl
      generalize hold : c.slot x y = old at ht
      cases ht with
      | start r m s h1 h2 h3 h4 h5 h6 h7 h8 h9 =>
        obtain ⟨hm, h16⟩ := hreq r rfl rfl
        refine ⟨h6, by omega, by rw [← h1]; exact hm, h7, h8, h9, ?_, ?_, ?_⟩
        · simp [h3, h4]
        · simp [h3, h4]
        · intro _; omega
      | keep ev a b o rc hk hne hq ho =>
        obtain ⟨h1, h2, h3, h4, h5, h6, h7, h8, h9⟩ := hi.slot x y a hold
        refine ⟨hk.nsapi.trans h1, h2, hord _ h3, hq.trans h4, by rw [hk.qosLen]; exact h5, hk.ti.trans h6, ?_, ?_, ?_⟩
        · rw [hk.timer, hk.st]; exact h7
        · rw [hk.timer, hk.st]; exact h8
        · rw [hk.attempts, hk.st]; exact h9
      | drop ev a o hst ho =>
        obtain ⟨h1, h2, h3, h4, h5, h6, h7, h8, h9⟩ := hi.slot x y a hold
        exact ⟨h1, h2, hord _ h3, h4, h5, h6, by simp [toInactive], by simp [toInactive],
          fun h => by simp [toInactive] at h⟩
      | activated t n a hst =>
        obtain ⟨h1, h2, h3, h4, h5, h6, h7, h8, h9⟩ := hi.slot x y a hold
        exact ⟨h1, h2, hord _ h3, h4, h5, h6, by simp [toActive], by simp [toActive],
          fun h => by simp [toActive] at h⟩
      | rejected n p a b xx cause hst hk hq hb hx =>
        obtain ⟨h1, h2, h3, h4, h5, h6, h7, h8, h9⟩ := hi.slot x y a hold
        exact ⟨hk.nsapi.trans h1, h2, hord _ h3, hq.trans h4, by
          show b.qosLen ≤ qosMax
          rw [hk.qosLen]; exact h5, hk.ti.trans h6, by simp [toInactive], by simp [toInactive],
          fun h => by simp [toInactive] at h⟩
      | gaveUp a hst h4' =>
        obtain ⟨h1, h2, h3, h4, h5, h6, h7, h8, h9⟩ := hi.slot x y a hold
        exact ⟨h1, h2, hord _ h3, h4, h5, h6, by simp [toInactive], by simp [toInactive],
          fun h => by simp [toInactive] at h⟩
      | retry m a hst h4' =>
        obtain ⟨h1, h2, h3, h4, h5, h6, h7, h8, h9⟩ := hi.slot x y a hold
        have h9' := h9 hst
        refine ⟨h1, h2, hord _ h3, h4, h5, h6, by simp, by simp, fun _ => ?_⟩
        show (a.attempts + 1) % 256 < 4
        omega
    · obtain ⟨a, b, d, e⟩ := hi.slot x y s hsl
      exact ⟨a, b, hord _ d, e⟩

/-- Histories, one event at a time. -/
theorem run_cons {c c2 : SmCtx} {e : SmIn} {l : List SmIn} {t : List SmObs}
    (h : smRun c (e :: l) = .ok (c2, t)) :
    ∃ c1 o rc t', smStep c e = .ok (c1, o, rc) ∧ smRun c1 l = .ok (c2, t') ∧ t = ⟨e, o, rc⟩ :: t' := by
  unfold smRun at h
  split at h
  · rename_i c1 o rc h1
    split at h
    · rename_i c3 t' h2
      cases h
      exact ⟨c1, o, rc, t', h1, h2, rfl⟩
    · cases h
    · cases h
  · cases h
  · cases h

theorem run_inv {c c' : SmCtx} (hi : SmInv c) {l : List SmIn} {t : List SmObs}
    (h : smRun c l = .ok (c', t)) : SmInv c' := by
  induction l generalizing c t with
  | nil => simp [smRun] at h; rw [← h.1]; exact hi
  | cons e l ih =>
    obtain ⟨c1, o, rc, t', h1, h2, _⟩ := run_cons h
    exact ih (step_inv hi h1) h2

end Verif.Sm
