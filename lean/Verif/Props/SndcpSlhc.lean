import Verif.Sndcp.SlhcSpec

/-!
# TCP/IP header compression of packets
-/
namespace Verif.Props

open Slhc Spec.IpPacket

/-! ## C129: packets survive compression -/

/-- Packets are compressed one after the other; what is sent arrives in order in a buffer with room for the packet, whatever else is
in the buffer; each comes out of the expansion as it was, and what was sent was not longer. -/
def Carried (t : Tx) (r : Rx) : List (List UInt8) → Prop
  | [] => True
  | p :: ps => ∃ t' i o, t.packet p = .ok (t', i, o) ∧ o.length ≤ p.length ∧
      ∀ rest, p.length ≤ (o ++ rest).length → ∃ r', r.packet (o ++ rest) o.length i = .ok (r', p) ∧ Carried t' r' ps

/-- All sequences of well-formed packets, for all numbers of slots. -/
def C129Statement : Prop :=
  ∀ slots, 1 ≤ slots → slots ≤ 255 → ∀ ps, (∀ p ∈ ps, WellFormed p) → Carried (Tx.init slots) (Rx.init slots) ps

/-- Tries it, with a buffer of 200 octets more. -/
def carry (t : Tx) (r : Rx) : List (List UInt8) → Bool
  | [] => true
  | p :: ps =>
    match t.packet p with
    | .ok (t', i, o) =>
      match r.packet (o ++ List.replicate 200 0) o.length i with
      | .ok (r', q) => decide (q = p) && carry t' r' ps
      | .ub _ => false
    | .ub _ => false

theorem carry_of : ∀ {ps : List (List UInt8)} {t : Tx} {r : Rx}, (∀ p ∈ ps, p.length ≤ 200) → Carried t r ps → carry t r ps = true
  | [], _, _, _, _ => rfl
  | p :: ps, t, r, hl, h => by
    obtain ⟨t', i, o, h1, -, h3⟩ := h
    have hp := hl p (List.mem_cons_self ..)
    obtain ⟨r', h4, h5⟩ := h3 (List.replicate 200 0) (by rw [List.length_append, List.length_replicate]; omega)
    have ih := carry_of (fun q hq => hl q (List.mem_cons_of_mem _ hq)) h5
    unfold carry
    rw [h1]
    dsimp only
    rw [h4]
    dsimp only
    rw [ih, decide_eq_true rfl]
    rfl

/-- A segment of a connection, with these flags, this sequence number and these octets of data. -/
def segment (ident sum flags seq : UInt8) (data : List UInt8) : List UInt8 :=
  [0x45, 0, 0, 40 + UInt8.ofNat data.length, 0, ident, 0x40, 0, 64, 6, 38, sum, 10, 0, 0, 1, 10, 0, 0, 2,
   0x04, 0xd2, 0, 80, 0, 0, 3, seq, 0, 0, 0, 1, 0x50, flags, 0x20, 0, 0xab, 0xcd, 0, 2] ++ data

/-- The URG flag of one segment is still there in the next, which does not have it. -/
theorem c129_violated : ¬ C129Statement := by
  intro h
  have h1 := h 4 (by decide) (by decide) [segment 1 202 0x38 100 [1, 2, 3], segment 2 202 0x18 103 [4, 5]] (by decide +kernel)
  have h2 := carry_of (by decide) h1
  exact absurd h2 (by decide +kernel)

/-- A change of the bits of congestion control is lost. -/
theorem c129_violated_marks : ¬ C129Statement := by
  intro h
  have h1 := h 4 (by decide) (by decide) [segment 1 202 0x18 100 [1, 2, 3], segment 2 202 0x58 103 [4, 5]] (by decide +kernel)
  have h2 := carry_of (by decide) h1
  exact absurd h2 (by decide +kernel)

/-- Sender and receiver agree on all slots that are used. -/
structure SlhcAgree (f : Conn → Nat × Nat × Nat) (t : Tx) (r : Rx) : Prop where
  tx : TxInv f t
  n : r.n = t.n
  room : ∀ i, Room (r.cs i)
  same : ∀ i, (t.cs i).ip.version = 4 → Same (t.cs i) (r.cs i)

theorem agree_after {f : Conn → Nat × Nat × Nat} {t t' : Tx} {r r' : Rx} {cs : Nat} (h : SlhcAgree f t r) (hx : TxInv f t') (hn : t'.n = t.n)
    (ho : ∀ i, i ≠ cs → t'.cs i = t.cs i) (a : After t' r r' cs) : SlhcAgree f t' r' := by
  refine ⟨hx, by rw [a.n, hn]; exact h.n, a.room, fun i hv => ?_⟩
  by_cases e : i = cs
  · subst e; exact a.same
  · rw [ho i e] at hv ⊢
    rw [a.other i e]
    exact h.same i hv

theorem carried_of {f : Conn → Nat × Nat × Nat} : ∀ {ps : List (List UInt8)} {t : Tx} {r : Rx}, SlhcAgree f t r → (∀ p ∈ ps, Good f p) → Carried t r ps
  | [], _, _, _, _ => trivial
  | p :: ps, t, r, h, hg => by
    have ih : ∀ {t r}, SlhcAgree f t r → Carried t r ps := fun h => carried_of h (fun q hq => hg q (List.mem_cons_of_mem _ hq))
    obtain ⟨t', i, o, h1, h2, h3, h4, hs⟩ := step h.tx (hg p (List.mem_cons_self ..))
    refine ⟨t', i, o, h1, h2, fun rest hl => ?_⟩
    cases hs with
    | plain e =>
      subst e
      refine ⟨r, ?_, ih h⟩
      show SRes.ok (r, (p ++ rest).take p.length) = _
      rw [List.take_left]
    | full cs a1 a2 a3 =>
      obtain ⟨r', b1, b2⟩ := a3 r h.n h.room rest
      exact ⟨r', b1, ih (agree_after h h3 h4 a2 b2)⟩
    | short cs x l a1 a2 a3 a4 a5 a6 =>
      obtain ⟨r', b1, b2⟩ := a6 r h.n h.room (h.same cs a5) rest hl
      exact ⟨r', b1, ih (agree_after h h3 h4 a2 b2)⟩

theorem room_init (slots i : Nat) : Room ((Rx.init slots).cs i) := ⟨List.length_replicate, List.length_replicate⟩

theorem agree_init (f : Conn → Nat × Nat × Nat) {slots : Nat} (h1 : 1 ≤ slots) (h2 : slots ≤ 255) : SlhcAgree f (Tx.init slots) (Rx.init slots) :=
  ⟨txinv_init f h1 h2, rfl, room_init slots, fun i hi => absurd hi (by show ¬ Cs.zero.ip.version = 4; decide)⟩

/-- **C129 (partial).**  Every sequence of well-formed packets, TCP or not, of any connections in any order, is carried unchanged if no
segment is urgent, none has more than 32767 octets of data, and the reserved and congestion bits are the same in all segments of a
connection (`f` says which). -/
theorem c129_partial {slots : Nat} (h1 : 1 ≤ slots) (h2 : slots ≤ 255) (f : Nat × Nat × Nat × Nat → Nat × Nat × Nat) (ps : List (List UInt8))
    (hw : ∀ p ∈ ps, WellFormed p) (ht : ∀ p ∈ ps, IsTcp p → ¬ Urgent p ∧ marks p = f (connection p) ∧ dataLen p ≤ 32767) :
    Carried (Tx.init slots) (Rx.init slots) ps :=
  carried_of (agree_init (liftF f) h1 h2) (fun p hp => good_of (hw p hp) (ht p hp))

/-- Three segments of a connection, the third with data that was sent before. -/
example : ∀ p ∈ [segment 1 202 0x18 100 [1, 2, 3], segment 2 202 0x18 103 [4, 5], segment 3 200 0x10 100 [1, 2, 3]],
    WellFormed p ∧ IsTcp p ∧ ¬ Urgent p ∧ marks p = (0, 0, 0) ∧ dataLen p ≤ 32767 := by decide +kernel

/-- The second of them is sent as a few octets. -/
example : (match (Tx.init 4).packet (segment 1 202 0x18 100 [1, 2, 3]) with
    | .ok (t, _) => match t.packet (segment 2 202 0x18 103 [4, 5]) with
      | .ok (_, i, o) => some (i, o)
      | _ => none
    | _ => none) = some (2, [0x5f, 0, 0xab, 0xcd, 4, 5]) := by decide +kernel

/-! ## C130: loss of packets -/

/-- Packets are compressed one after the other and some are lost, the others arrive in a buffer with 117 octets more than needed.
`known` are the slots from whose last full header on nothing was lost.  What was sent without compression, or compressed with a known
slot, comes out as it was. -/
def Delivered (known : Nat → Prop) (t : Tx) (r : Rx) : List (List UInt8 × Bool) → Prop
  | [] => True
  | (p, true) :: ps => ∃ t' i o, t.packet p = .ok (t', i, o) ∧
      ∀ rest, p.length ≤ (o ++ rest).length → o.length + 117 ≤ (o ++ rest).length →
        ∃ r' q, r.packet (o ++ rest) o.length i = .ok (r', q) ∧ (i ≠ 2 ∨ known (slotOf i o) → q = p) ∧
          Delivered (fun s => known s ∨ (i = 1 ∧ s = slotOf i o)) t' r' ps
  | (p, false) :: ps => ∃ t' i o, t.packet p = .ok (t', i, o) ∧ Delivered (fun s => known s ∧ ¬ (i ≠ 0 ∧ s = slotOf i o)) t' r ps

/-- The same with loss. -/
structure Known (f : Conn → Nat × Nat × Nat) (K : Nat → Prop) (t : Tx) (r : Rx) : Prop where
  tx : TxInv f t
  n : r.n = t.n
  room : ∀ i, Room (r.cs i)
  same : ∀ i, K i → Same (t.cs i) (r.cs i)

theorem slot_one {p : List UInt8} {cs : Nat} (h : cs ≤ 255) (hp : 20 ≤ p.length) : slotOf 1 (p.set 9 (UInt8.ofNat cs)) = cs := by
  unfold slotOf octet
  rw [if_pos rfl, List.getD_eq_getElem?_getD, List.getElem?_set, if_pos rfl, if_pos (by omega)]
  show (UInt8.ofNat cs).toNat = cs
  rw [UInt8.toNat_ofNat']
  omega

theorem slot_two {x : UInt8} {l : List UInt8} {cs : Nat} (h : cs ≤ 255) : slotOf 2 (x :: UInt8.ofNat cs :: l) = cs := by
  show (UInt8.ofNat cs).toNat = cs
  rw [UInt8.toNat_ofNat']
  omega

theorem delivered_of {f : Conn → Nat × Nat × Nat} : ∀ {ps : List (List UInt8 × Bool)} {K : Nat → Prop} {t : Tx} {r : Rx}, Known f K t r →
    (∀ p ∈ ps, Good f p.1) → Delivered K t r ps
  | [], _, _, _, _, _ => trivial
  | (p, arrives) :: ps, K, t, r, h, hg => by
    have ih : ∀ {K t r}, Known f K t r → Delivered K t r ps := fun h => delivered_of h (fun q hq => hg q (List.mem_cons_of_mem _ hq))
    have g := hg (p, arrives) (List.mem_cons_self ..)
    have h20 : 20 ≤ p.length := by have := g.hdr; have := g.ihl; dsimp only at *; omega
    have htop := h.tx.top
    obtain ⟨t', i, o, h1, h2, h3, h4, hs⟩ := step h.tx g
    cases arrives with
    | true =>
      refine ⟨t', i, o, h1, fun rest hl hl' => ?_⟩
      cases hs with
      | plain e =>
        subst e
        refine ⟨r, p, ?_, fun _ => rfl, ih ⟨h.tx, h.n, h.room, ?_⟩⟩
        · show SRes.ok (r, (p ++ rest).take p.length) = _
          rw [List.take_left]
        · rintro i (hi | ⟨hi, -⟩)
          · exact h.same i hi
          · exact absurd hi (by decide)
      | full cs a1 a2 a3 =>
        obtain ⟨r', b1, b2⟩ := a3 r h.n h.room rest
        refine ⟨r', p, b1, fun _ => rfl, ih ⟨h3, by rw [b2.n, h4]; exact h.n, b2.room, ?_⟩⟩
        rw [slot_one (by omega) h20]
        intro i hi
        by_cases e : i = cs
        · subst e; exact b2.same
        · rw [a2 i e, b2.other i e]
          rcases hi with hi | ⟨-, hi⟩
          · exact h.same i hi
          · exact absurd hi e
      | short cs x l a1 a2 a3 a4 a5 a6 =>
        by_cases hk : K cs
        · obtain ⟨r', b1, b2⟩ := a6 r h.n h.room (h.same cs hk) rest hl
          refine ⟨r', p, b1, fun _ => rfl, ih ⟨h3, by rw [b2.n, h4]; exact h.n, b2.room, ?_⟩⟩
          rintro i (hi | ⟨hi, -⟩)
          · by_cases e : i = cs
            · subst e; exact b2.same
            · rw [a2 i e, b2.other i e]
              exact h.same i hi
          · exact absurd hi (by decide)
        · obtain ⟨r', q, b1, b2, b3, b4⟩ := short_any (by rw [h.n]; exact a1) (by rw [h.n]; exact htop) x a3 l rest (by omega) hl'
          refine ⟨r', q, b1, ?_, ih ⟨h3, by rw [b2, h4]; exact h.n, b4 h.room, ?_⟩⟩
          · rintro (e | e)
            · exact absurd rfl e
            · rw [slot_two (by omega)] at e
              exact absurd e hk
          · rintro i (hi | ⟨hi, -⟩)
            · have e : i ≠ cs := fun e => hk (e ▸ hi)
              rw [a2 i e, b3 i e]
              exact h.same i hi
            · exact absurd hi (by decide)
    | false =>
      refine ⟨t', i, o, h1, ih ⟨h3, by rw [h4]; exact h.n, h.room, ?_⟩⟩
      cases hs with
      | plain e =>
        subst e
        rintro i ⟨hi, -⟩
        exact h.same i hi
      | full cs a1 a2 a3 =>
        rw [slot_one (by omega) h20]
        rintro i ⟨hi, hne⟩
        have e : i ≠ cs := fun e => hne ⟨by decide, e⟩
        rw [a2 i e]
        exact h.same i hi
      | short cs x l a1 a2 a3 a4 a5 a6 =>
        rw [slot_two (by omega)]
        rintro i ⟨hi, hne⟩
        have e : i ≠ cs := fun e => hne ⟨by decide, e⟩
        rw [a2 i e]
        exact h.same i hi

/-- All sequences of well-formed packets and losses. -/
def C130Statement : Prop :=
  ∀ slots, 1 ≤ slots → slots ≤ 255 → ∀ ps : List (List UInt8 × Bool), (∀ p ∈ ps, WellFormed p.1) →
    Delivered (fun _ => False) (Tx.init slots) (Rx.init slots) ps

/-- The loss of a packet harms only packets of its slot, and only until the next full header; but see C129. -/
theorem c130_violated : ¬ C130Statement := by
  intro h
  have h1 := h 4 (by decide) (by decide) [(segment 1 202 0x38 100 [1, 2, 3], true), (segment 2 202 0x18 103 [4, 5], true)] (by decide +kernel)
  obtain ⟨t', i, o, a1, a2⟩ := h1
  have e1 : ∃ t'', (Tx.init 4).packet (segment 1 202 0x38 100 [1, 2, 3]) = .ok (t'', 1, (segment 1 202 0x38 100 [1, 2, 3]).set 9 0) := by
    cases e : (Tx.init 4).packet (segment 1 202 0x38 100 [1, 2, 3]) with
    | ub u => rw [a1] at e; cases e
    | ok v =>
      have e' : (match (Tx.init 4).packet (segment 1 202 0x38 100 [1, 2, 3]) with | .ok v => some v.2 | .ub _ => none) =
          some (1, (segment 1 202 0x38 100 [1, 2, 3]).set 9 0) := by decide +kernel
      rw [e] at e'
      obtain ⟨v1, v2⟩ := v
      cases e'
      exact ⟨v1, rfl⟩
  obtain ⟨t'', e1⟩ := e1
  rw [a1] at e1
  cases e1
  obtain ⟨r', q, b1, -, b3⟩ := a2 (List.replicate 200 0) (by decide +kernel) (by decide +kernel)
  obtain ⟨t2, i2, o2, c1, c2⟩ := b3
  have key : (match (Tx.init 4).packet (segment 1 202 0x38 100 [1, 2, 3]) with
      | .ok v => match (Rx.init 4).packet (v.2.2 ++ List.replicate 200 0) v.2.2.length v.2.1 with
        | .ok w => match v.1.packet (segment 2 202 0x18 103 [4, 5]) with
          | .ok u => match w.1.packet (u.2.2 ++ List.replicate 200 0) u.2.2.length u.2.1 with
            | .ok z => decide (z.2 = segment 2 202 0x18 103 [4, 5]) || decide (slotOf u.2.1 u.2.2 ≠ 0) ||
                decide (¬ 42 ≤ (u.2.2 ++ List.replicate 200 0).length) || decide (¬ u.2.2.length + 117 ≤ (u.2.2 ++ List.replicate 200 0).length)
            | .ub _ => true
          | .ub _ => true
        | .ub _ => true
      | .ub _ => true) = false := by decide +kernel
  rw [a1] at key
  dsimp only at key
  rw [b1] at key
  dsimp only at key
  rw [c1] at key
  dsimp only at key
  by_cases k1 : 42 ≤ (o2 ++ List.replicate 200 0).length
  · by_cases k2 : o2.length + 117 ≤ (o2 ++ List.replicate 200 0).length
    · obtain ⟨r3, q3, d1, d2, -⟩ := c2 (List.replicate 200 0) k1 k2
      rw [d1] at key
      dsimp only at key
      by_cases k3 : slotOf i2 o2 = 0
      · have := d2 (.inr (.inr ⟨rfl, k3⟩))
        rw [decide_eq_true this] at key
        cases key
      · rw [decide_eq_true k3, Bool.or_true] at key
        cases key
    · obtain ⟨z, hz⟩ : ∃ z, z = r'.packet (o2 ++ List.replicate 200 0) o2.length i2 := ⟨_, rfl⟩
      rw [← hz] at key
      cases z with
      | ub u => cases key
      | ok z => dsimp only at key; rw [decide_eq_true k2, Bool.or_true] at key; cases key
  · obtain ⟨z, hz⟩ : ∃ z, z = r'.packet (o2 ++ List.replicate 200 0) o2.length i2 := ⟨_, rfl⟩
    rw [← hz] at key
    cases z with
    | ub u => cases key
    | ok z => dsimp only at key; rw [decide_eq_true k1, Bool.or_true, Bool.true_or] at key; cases key

/-- **C130 (partial).**  For the packets of C129 and every pattern of losses. -/
theorem c130_partial {slots : Nat} (h1 : 1 ≤ slots) (h2 : slots ≤ 255) (f : Nat × Nat × Nat × Nat → Nat × Nat × Nat)
    (ps : List (List UInt8 × Bool)) (hw : ∀ p ∈ ps, WellFormed p.1)
    (ht : ∀ p ∈ ps, IsTcp p.1 → ¬ Urgent p.1 ∧ marks p.1 = f (connection p.1) ∧ dataLen p.1 ≤ 32767) :
    Delivered (fun _ => False) (Tx.init slots) (Rx.init slots) ps :=
  delivered_of (f := liftF f) ⟨txinv_init _ h1 h2, rfl, room_init slots, fun _ h => h.elim⟩ (fun p hp => good_of (hw p hp) (ht p hp))

/-- A full header is sent, a compressed packet is lost, and the next is compressed. -/
example : ∀ p ∈ [(segment 1 202 0x18 100 [1, 2, 3], true), (segment 2 202 0x18 103 [4, 5], false), (segment 3 200 0x10 100 [1, 2, 3], true)],
    WellFormed p.1 ∧ (IsTcp p.1 → ¬ Urgent p.1 ∧ marks p.1 = (fun _ => (0, 0, 0)) (connection p.1) ∧ dataLen p.1 ≤ 32767) := by decide +kernel

/-! ## C131: safety of compression -/

/-- Packets are compressed one after the other: what is sent. -/
def compressAll (t : Tx) : List (List UInt8) → SRes (List (Nat × List UInt8))
  | [] => .ok []
  | p :: ps => do
    let (t', i, o) ← t.packet p
    let l ← compressAll t' ps
    .ok ((i, o) :: l)

/-- All sequences of packets of any octets are compressed, without a fault, to packets that are not longer. -/
def C131Statement : Prop :=
  ∀ slots, 1 ≤ slots → slots ≤ 255 → ∀ ps, ∃ l, compressAll (Tx.init slots) ps = .ok l ∧
    l.length = ps.length ∧ ∀ i, i < ps.length → (l.getD i (0, [])).2.length ≤ (ps.getD i []).length

/-- A packet of 20 octets that says that its header has 60: a TCP header is read behind its end. -/
theorem c131_violated : ¬ C131Statement := by
  intro h
  obtain ⟨l, h1, -⟩ := h 4 (by decide) (by decide) [[0x4f, 0, 0, 20, 0, 0, 0, 0, 0, 6, 0, 0, 0, 0, 0, 0, 0, 0, 0, 0]]
  have h2 : compressAll (Tx.init 4) [[0x4f, 0, 0, 20, 0, 0, 0, 0, 0, 6, 0, 0, 0, 0, 0, 0, 0, 0, 0, 0]] = .ub .bounds := by decide +kernel
  rw [h2] at h1
  cases h1

/-- Of an empty packet an octet is read. -/
theorem c131_violated_empty : ¬ C131Statement := by
  intro h
  obtain ⟨l, h1, -⟩ := h 4 (by decide) (by decide) [[]]
  have h2 : compressAll (Tx.init 4) [[]] = .ub .bounds := by decide +kernel
  rw [h2] at h1
  cases h1

theorem compressAll_ok : ∀ {ps : List (List UInt8)} {t : Tx}, TInv t →
    (∀ p ∈ ps, p ≠ [] ∧ (20 ≤ p.length → IsTcp p → 20 ≤ ipLen p ∧ ipLen p + 20 ≤ p.length)) →
    ∃ l, compressAll t ps = .ok l ∧ l.length = ps.length ∧ ∀ i, i < ps.length → (l.getD i (0, [])).2.length ≤ (ps.getD i []).length
  | [], _, _, _ => ⟨[], rfl, rfl, fun i hi => absurd hi (by simp)⟩
  | p :: ps, t, h, hp => by
    obtain ⟨hne, hin⟩ := hp p (List.mem_cons_self ..)
    obtain ⟨t', i, o, e1, e2, e3⟩ := packet_safe h p hne (fun h20 hpr hf => by
      have e := ipLen_eq p
      obtain ⟨a, b⟩ := hin h20 ⟨by show (Ip.read p).proto.toNat = 6; rw [hpr]; rfl, by rw [← get16_word]; exact and_3fff.1 hf⟩
      exact ⟨by omega, by omega⟩)
    obtain ⟨l, f1, f2, f3⟩ := compressAll_ok e3 (fun q hq => hp q (List.mem_cons_of_mem _ hq))
    refine ⟨(i, o) :: l, ?_, by rw [List.length_cons, List.length_cons, f2], fun k hk => ?_⟩
    · unfold compressAll
      rw [e1, sbind_ok]
      dsimp only
      rw [f1, sbind_ok]
    · cases k with
      | zero => exact e2
      | succ k => exact f3 k (by rw [List.length_cons] at hk; omega)

/-- **C131 (partial).**  All sequences of packets with at least one octet in which every TCP segment has its headers inside the
packet; nothing else is asked of the packets. -/
theorem c131_partial {slots : Nat} (h1 : 1 ≤ slots) (ps : List (List UInt8))
    (hp : ∀ p ∈ ps, p ≠ [] ∧ (20 ≤ p.length → IsTcp p → 20 ≤ ipLen p ∧ ipLen p + 20 ≤ p.length)) :
    ∃ l, compressAll (Tx.init slots) ps = .ok l ∧ l.length = ps.length ∧
      ∀ i, i < ps.length → (l.getD i (0, [])).2.length ≤ (ps.getD i []).length :=
  compressAll_ok (tinv_init h1) hp

example : ∀ p ∈ [[1, 2, 3], segment 1 202 0x38 100 [1, 2, 3], segment 2 202 0x18 103 [4, 5]],
    p ≠ [] ∧ (20 ≤ p.length → IsTcp p → 20 ≤ ipLen p ∧ ipLen p + 20 ≤ p.length) := by decide +kernel

/-! ## C132: safety of expansion -/

/-- Packets (index and octets) are expanded one after the other, each in a buffer of zeros with ten times its size and 64 octets more,
/repo/src/sndcp/sndcp.c:349-351: what comes out. -/
def expandAll (r : Rx) : List (Nat × List UInt8) → SRes (Rx × List (List UInt8))
  | [] => .ok (r, [])
  | (i, o) :: l => do
    let (r', q) ← r.packet (o ++ List.replicate (9 * o.length + 64) 0) o.length i
    let (r'', qs) ← expandAll r' l
    .ok (r'', q :: qs)

/-- All sequences of packets of any octets are expanded without a fault. -/
def C132Statement : Prop :=
  ∀ slots, 1 ≤ slots → slots ≤ 255 → ∀ l, (∀ x ∈ l, x.2 ≠ []) → ∃ v, expandAll (Rx.init slots) l = .ok v

/-- A packet with long options, and a compressed packet of four octets for its slot: a header of 120 octets is written into a buffer
of 104. -/
theorem c132_violated : ¬ C132Statement := by
  intro h
  obtain ⟨v, h1⟩ := h 4 (by decide) (by decide)
    [(1, [0x4f, 0, 0, 120, 0, 1, 0x40, 0, 64, 0, 28, 125, 10, 0, 0, 1, 10, 0, 0, 2] ++ List.replicate 40 0 ++
      [0x04, 0xd2, 0, 80, 0, 0, 3, 232, 0, 0, 0, 1, 0xf0, 0x10, 0x20, 0, 0xab, 0xcd, 0, 0] ++ List.replicate 40 0), (2, [0x4f, 0, 0, 0])] (by decide)
  have h2 : (match expandAll (Rx.init 4)
    [(1, [0x4f, 0, 0, 120, 0, 1, 0x40, 0, 64, 0, 28, 125, 10, 0, 0, 1, 10, 0, 0, 2] ++ List.replicate 40 0 ++
      [0x04, 0xd2, 0, 80, 0, 0, 3, 232, 0, 0, 0, 1, 0xf0, 0x10, 0x20, 0, 0xab, 0xcd, 0, 0] ++ List.replicate 40 0), (2, [0x4f, 0, 0, 0])] with
    | .ub u => decide (u = .bounds) | .ok _ => false) = true := by decide +kernel
  rw [h1] at h2
  cases h2

theorem expandAll_ok : ∀ {l : List (Nat × List UInt8)} {r : Rx}, RInv r →
    (∀ x ∈ l, x.2 ≠ [] ∧ (x.1 = 2 → x.2.length ≤ 2 ∨ 6 ≤ x.2.length)) → ∃ v, expandAll r l = .ok v
  | [], _, _, _ => ⟨_, rfl⟩
  | (i, o) :: l, r, h, hx => by
    obtain ⟨hne, hlen⟩ := hx (i, o) (List.mem_cons_self ..)
    dsimp only at hne hlen
    have hpos : 0 < o.length := List.length_pos_of_ne_nil hne
    have hb : (o ++ List.replicate (9 * o.length + 64) 0).length = 10 * o.length + 64 := by
      rw [List.length_append, List.length_replicate]; omega
    have hbe : o ++ List.replicate (9 * o.length + 64) 0 ≠ [] := fun e => by rw [e] at hb; simp at hb
    have one : ∃ r' p, r.packet (o ++ List.replicate (9 * o.length + 64) 0) o.length i = .ok (r', p) ∧ RInv r' := by
      by_cases hlong : 6 ≤ o.length
      · obtain ⟨r', p, e1, e2, -⟩ := expand_safe (b := o ++ List.replicate (9 * o.length + 64) 0) (n := o.length) h i (.inl (by omega))
        exact ⟨r', p, e1, e2⟩
      · by_cases hshort : o.length < 3
        · obtain ⟨r', p, e1, e2, -⟩ := expand_safe (b := o ++ List.replicate (9 * o.length + 64) 0) (n := o.length) h i (.inr ⟨hshort, hbe⟩)
          exact ⟨r', p, e1, e2⟩
        · have hi2 : i ≠ 2 := fun e => by have := hlen e; omega
          unfold Rx.packet
          split
          · cases hq : o ++ List.replicate (9 * o.length + 64) 0 with
            | nil => exact absurd hq hbe
            | cons a m =>
              dsimp only
              unfold Rx.remember
              rw [if_pos (by omega)]
              exact ⟨_, _, rfl, h.tossed⟩
          · exact ⟨_, _, rfl, h⟩
    obtain ⟨r', p, e1, e2⟩ := one
    obtain ⟨⟨r'', qs⟩, e3⟩ := expandAll_ok e2 (fun x hx' => hx x (List.mem_cons_of_mem _ hx'))
    refine ⟨(r'', p :: qs), ?_⟩
    unfold expandAll
    rw [e1, sbind_ok]
    dsimp only
    rw [e3, sbind_ok]

/-- **C132 (partial).**  All sequences of packets, with any index and any octets, except compressed packets of three, four or five
octets. -/
theorem c132_partial {slots : Nat} (h1 : 1 ≤ slots) (l : List (Nat × List UInt8))
    (hl : ∀ x ∈ l, x.2 ≠ [] ∧ (x.1 = 2 → x.2.length ≤ 2 ∨ 6 ≤ x.2.length)) : ∃ v, expandAll (Rx.init slots) l = .ok v :=
  expandAll_ok (rinv_init h1) hl

example : ∀ x ∈ [(1, (segment 1 202 0x18 100 [1, 2, 3]).set 9 0), (2, [0x4f, 0, 1, 2, 3, 4]), (2, [0xff, 0xff])],
    x.2 ≠ [] ∧ (x.1 = 2 → x.2.length ≤ 2 ∨ 6 ≤ x.2.length) := by decide +kernel

/-! ## C133: compressed packets of an unknown slot -/

/-- A compressed packet with the number of a slot of which no full header came, gives nothing. -/
def C133Statement : Prop :=
  ∀ slots, 1 ≤ slots → slots ≤ 255 → ∀ l r qs, expandAll (Rx.init slots) l = .ok (r, qs) →
    ∀ o, 2 ≤ o.length → octet o 0 / 64 % 2 = 1 → (∀ x ∈ l, ¬ (x.1 = 1 ∧ slotOf 1 x.2 = slotOf 2 o)) →
    ∀ r' qs', expandAll r [(2, o)] = .ok (r', qs') → qs' = [[]]

/-- The very first packet, compressed: an octet that was never sent is delivered as a packet. -/
theorem c133_violated : ¬ C133Statement := by
  intro h
  have h2 : (match expandAll (Rx.init 4) [(2, [0x40, 0, 1, 2, 0xaa, 0xbb])] with | .ok v => decide (v.2 = [[]]) | .ub _ => true) = false := by
    decide +kernel
  cases e : expandAll (Rx.init 4) [(2, [0x40, 0, 1, 2, 0xaa, 0xbb])] with
  | ub u => rw [e] at h2; cases h2
  | ok v =>
    obtain ⟨r', qs'⟩ := v
    have h1 := h 4 (by decide) (by decide) [] (Rx.init 4) [] rfl [0x40, 0, 1, 2, 0xaa, 0xbb] (by decide) (by decide) (by decide) r' qs' e
    rw [e] at h2
    dsimp only at h2
    rw [decide_eq_true h1] at h2
    cases h2

theorem flag64 (x : UInt8) : flag x 64 = decide (x.toNat / 64 % 2 = 1) := by
  have : ∀ n : Fin 256, flag (UInt8.ofNat n.val) 64 = decide (n.val / 64 % 2 = 1) := by decide +kernel
  have h := this ⟨x.toNat, x.toNat_lt⟩
  rw [UInt8.ofNat_toNat] at h
  exact h

theorem getD_append {o z : List UInt8} {i : Nat} (h : i < o.length) : (o ++ z).getD i 0 = o.getD i 0 := by
  rw [List.getD_eq_getElem?_getD, List.getD_eq_getElem?_getD, List.getElem?_append_left h]

/-- The number of slots does not change. -/
theorem expandAll_n : ∀ {l : List (Nat × List UInt8)} {r r' : Rx} {qs}, expandAll r l = .ok (r', qs) → r'.n = r.n
  | [], r, r', qs, h => by cases h; rfl
  | (i, o) :: l, r, r', qs, h => by
    unfold expandAll at h
    cases e1 : r.packet (o ++ List.replicate (9 * o.length + 64) 0) o.length i with
    | ub u => rw [e1] at h; cases h
    | ok v =>
      obtain ⟨r1, q⟩ := v
      rw [e1, sbind_ok] at h
      dsimp only at h
      cases e2 : expandAll r1 l with
      | ub u => rw [e2] at h; cases h
      | ok w =>
        obtain ⟨r2, qs2⟩ := w
        rw [e2, sbind_ok] at h
        cases h
        rw [expandAll_n e2]
        have ws : ∀ {r : Rx} {x b n i r' q}, r.withSlot x b n i = .ok (r', q) → r'.n = r.n := by
          intro r x b n i r' q h
          unfold Rx.withSlot at h
          split at h
          · cases h
          split at h
          · cases h
          split at h
          · cases h
          dsimp only at h
          generalize hc : applyChanges _ _ _ _ = z at h
          cases z with
          | ub u => cases h
          | ok v =>
            obtain ⟨v1, v2⟩ := v
            rw [sbind_ok] at h
            dsimp only at h
            cases f2 : identStep (flag x 32) b v2 with
            | ub u => rw [f2] at h; cases h
            | ok w =>
              obtain ⟨w1, w2⟩ := w
              rw [f2, sbind_ok] at h
              dsimp only at h
              split at h
              · cases h; rfl
              · generalize hc : rebuild _ b w2 (n - w2) = z at h
                cases z with
                | ub u => cases h
                | ok z => rw [sbind_ok] at h; cases h; rfl
        unfold Rx.packet at e1
        split at e1
        · generalize o ++ List.replicate (9 * o.length + 64) 0 = b at e1
          cases b with
          | nil => cases e1
          | cons a m =>
            dsimp only at e1
            unfold Rx.remember at e1
            dsimp only at e1
            repeat' split at e1
            all_goals first | (cases e1; rfl) | cases e1
        · split at e1
          · unfold Rx.uncompress at e1
            split at e1
            · cases e1; rfl
            · split at e1
              · split at e1
                · cases e1; rfl
                · have := ws e1; exact this
              · split at e1
                · cases e1; rfl
                · exact ws e1
          · cases e1; rfl

/-- **C133 (partial).**  A compressed packet with a number that no slot has gives nothing, after all packets. -/
theorem c133_partial {slots : Nat} (h1 : 1 ≤ slots) {l r qs} (h : expandAll (Rx.init slots) l = .ok (r, qs)) (o : List UInt8)
    (hb : octet o 0 / 64 % 2 = 1) (hs : slots ≤ slotOf 2 o) : ∃ r', expandAll r [(2, o)] = .ok (r', [[]]) := by
  have hn : r.n = slots := expandAll_n h
  have one : ∃ r', r.packet (o ++ List.replicate (9 * o.length + 64) 0) o.length 2 = .ok (r', []) := by
    unfold Rx.packet
    rw [if_neg (by decide), if_pos rfl]
    unfold Rx.uncompress
    split
    · exact ⟨_, rfl⟩
    · have hs' : slots ≤ (o.getD 1 0).toNat := hs
      rw [getD_append (by omega), getD_append (by omega), if_pos (by rw [flag64]; exact decide_eq_true hb), if_pos (by omega)]
      exact ⟨_, rfl⟩
  obtain ⟨r', e⟩ := one
  refine ⟨r', ?_⟩
  unfold expandAll
  rw [e, sbind_ok]
  rfl

example : ∃ r', expandAll (Rx.init 4) [(2, [0x4f, 4, 1, 2, 3, 4])] = .ok (r', [[]]) :=
  c133_partial (l := []) (by decide) rfl _ (by decide) (by decide)

/-! ## C134: compressed packets without a number after a packet that was refused -/

/-- After a packet that gave nothing, compressed packets without the number of a slot give nothing. -/
def C134Statement : Prop :=
  ∀ slots, 1 ≤ slots → slots ≤ 255 → ∀ l r qs, expandAll (Rx.init slots) l = .ok (r, qs) →
    ∀ i o r', i = 1 ∨ i = 2 → o ≠ [] → expandAll r [(i, o)] = .ok (r', [[]]) →
    ∀ later : List (List UInt8), (∀ x ∈ later, x ≠ [] ∧ octet x 0 / 64 % 2 = 0) → ∃ r'', expandAll r' (later.map fun x => (2, x)) = .ok (r'', later.map fun _ => [])

/-- A compressed packet of two octets is refused but leaves no trace: the next one is taken for the wrong data. -/
theorem c134_violated : ¬ C134Statement := by
  intro h
  have k1 : (match expandAll (Rx.init 4) [(1, (segment 1 202 0x18 100 [1, 2, 3]).set 9 0)] with
      | .ok v => match expandAll v.1 [(2, [0x40, 0])] with
        | .ok w => decide (w.2 = [[]]) && match expandAll w.1 [(2, [0x0f, 0xab, 0xcd])] with
          | .ok z => decide (z.2 ≠ [[]])
          | .ub _ => false
        | .ub _ => false
      | .ub _ => false) = true := by decide +kernel
  cases e1 : expandAll (Rx.init 4) [(1, (segment 1 202 0x18 100 [1, 2, 3]).set 9 0)] with
  | ub u => rw [e1] at k1; cases k1
  | ok v =>
    obtain ⟨r, qs⟩ := v
    rw [e1] at k1
    dsimp only at k1
    cases e2 : expandAll r [(2, [0x40, 0])] with
    | ub u => rw [e2] at k1; cases k1
    | ok w =>
      obtain ⟨r', q'⟩ := w
      rw [e2] at k1
      dsimp only at k1
      rw [Bool.and_eq_true] at k1
      obtain ⟨k2, k3⟩ := k1
      have k2' := of_decide_eq_true k2
      subst k2'
      obtain ⟨r'', e3⟩ := h 4 (by decide) (by decide) _ r qs e1 2 [0x40, 0] r' (.inr rfl) (by decide) e2 [[0x0f, 0xab, 0xcd]] (by decide)
      have e3' : expandAll r' [(2, [0x0f, 0xab, 0xcd])] = .ok (r'', [[]]) := e3
      rw [e3'] at k3
      exact absurd rfl (of_decide_eq_true k3)

theorem tossed_all : ∀ {later : List (List UInt8)} {r : Rx}, r.toss = true → (∀ x ∈ later, x ≠ [] ∧ octet x 0 / 64 % 2 = 0) →
    ∃ r'', expandAll r (later.map fun x => (2, x)) = .ok (r'', later.map fun _ => [])
  | [], r, _, _ => ⟨r, rfl⟩
  | x :: later, r, ht, hx => by
    obtain ⟨hne, h64⟩ := hx x (List.mem_cons_self ..)
    have one : r.packet (x ++ List.replicate (9 * x.length + 64) 0) x.length 2 = .ok (r, []) := by
      unfold Rx.packet
      rw [if_neg (by decide), if_pos rfl]
      unfold Rx.uncompress
      split
      · rfl
      · have hf : flag ((x ++ List.replicate (9 * x.length + 64) 0).getD 0 0) 64 = false := by
          rw [getD_append (List.length_pos_of_ne_nil hne), flag64]
          refine decide_eq_false ?_
          unfold octet at h64
          omega
        rw [hf]
        rfl
    obtain ⟨r'', e⟩ := tossed_all ht (fun y hy => hx y (List.mem_cons_of_mem _ hy))
    refine ⟨r'', ?_⟩
    rw [List.map_cons, List.map_cons]
    conv => lhs; unfold expandAll
    rw [one, sbind_ok]
    dsimp only
    rw [e, sbind_ok]

/-- **C134 (partial).**  If the packet that gave nothing was sent uncompressed, or compressed with a number that no slot has and at
least three octets. -/
theorem c134_partial {slots : Nat} (h1 : 1 ≤ slots) {l r qs} (h : expandAll (Rx.init slots) l = .ok (r, qs)) {i : Nat} {o : List UInt8} {r' : Rx}
    (hr : expandAll r [(i, o)] = .ok (r', [[]]))
    (hi : i = 1 ∨ (i = 2 ∧ 3 ≤ o.length ∧ octet o 0 / 64 % 2 = 1 ∧ slots ≤ slotOf 2 o))
    (later : List (List UInt8)) (hl : ∀ x ∈ later, x ≠ [] ∧ octet x 0 / 64 % 2 = 0) :
    ∃ r'', expandAll r' (later.map fun x => (2, x)) = .ok (r'', later.map fun _ => []) := by
  have hn : r.n = slots := expandAll_n h
  refine tossed_all ?_ hl
  unfold expandAll at hr
  cases e : r.packet (o ++ List.replicate (9 * o.length + 64) 0) o.length i with
  | ub u => rw [e] at hr; cases hr
  | ok v =>
    obtain ⟨r1, q⟩ := v
    rw [e, sbind_ok] at hr
    dsimp only at hr
    have hr' : (SRes.ok (r1, [q]) : SRes (Rx × List (List UInt8))) = .ok (r', [[]]) := hr
    cases hr'
    unfold Rx.packet at e
    rcases hi with rfl | ⟨rfl, h3, hb, hs⟩
    · rw [if_pos rfl] at e
      have hbl : o.length < (o ++ List.replicate (9 * o.length + 64) (0 : UInt8)).length := by
        rw [List.length_append, List.length_replicate]; omega
      generalize o ++ List.replicate (9 * o.length + 64) 0 = b at e hbl
      cases b with
      | nil => cases e
      | cons a m =>
        dsimp only at e
        unfold Rx.remember at e
        dsimp only at e
        split at e
        · cases e; rfl
        · rename_i h20
          split at e
          · cases e; rfl
          · split at e
            · cases e
            · split at e
              · cases e; rfl
              · split at e
                · cases e; rfl
                · split at e
                  · cases e
                  · split at e
                    · cases e
                    · exfalso
                      have e' := congrArg (fun v => match v with | SRes.ok v => v.2.length | SRes.ub _ => 0) e
                      dsimp only at e'
                      rw [List.length_take, List.length_set, List.length_cons, List.length_nil] at e'
                      rw [List.length_cons] at hbl
                      omega
    · rw [if_neg (by decide), if_pos rfl] at e
      unfold Rx.uncompress at e
      have hs' : slots ≤ (o.getD 1 0).toNat := hs
      rw [if_neg (by omega), getD_append (by omega), getD_append (by omega), if_pos (by rw [flag64]; exact decide_eq_true hb), if_pos (by omega)] at e
      cases e
      rfl

/-- A full header with a wrong checksum. -/
example : ∃ r', expandAll (Rx.init 4) [(1, (segment 1 203 0x18 100 [1, 2, 3]).set 9 0)] = .ok (r', [[]]) := by
  have k : (match expandAll (Rx.init 4) [(1, (segment 1 203 0x18 100 [1, 2, 3]).set 9 0)] with | .ok v => decide (v.2 = [[]]) | .ub _ => false) = true := by
    decide +kernel
  cases e : expandAll (Rx.init 4) [(1, (segment 1 203 0x18 100 [1, 2, 3]).set 9 0)] with
  | ub u => rw [e] at k; cases k
  | ok v =>
    obtain ⟨r, qs⟩ := v
    rw [e] at k
    have := of_decide_eq_true k
    dsimp only at this
    subst this
    exact ⟨r, rfl⟩

/-! ## C135: all numbers of slots that can be negotiated -/

/-- Whatever S0-1 was negotiated (one octet), a segment can be compressed. -/
def C135Statement : Prop :=
  ∀ s01, s01 ≤ 255 → ∀ p, WellFormed p → ∃ t r, initBoth s01 = some (t, r) ∧ ∃ v, t.packet p = .ok v

/-- With 255 there is no state: a null pointer is used for the first packet. -/
theorem c135_violated : ¬ C135Statement := by
  intro h
  obtain ⟨t, r, h1, -⟩ := h 255 (by decide) (segment 1 202 0x18 100 [1, 2, 3]) (by decide +kernel)
  exact absurd h1 (by rw [show initBoth 255 = none from rfl]; exact fun h => by cases h)

/-- **C135 (partial).**  All values below 255; both sides have one slot more than the value. -/
theorem c135_partial {s01 : Nat} (h : s01 < 255) {p : List UInt8} (hp : WellFormed p) :
    ∃ t r, initBoth s01 = some (t, r) ∧ t.n = s01 + 1 ∧ r.n = s01 + 1 ∧ ∃ v, t.packet p = .ok v := by
  refine ⟨Tx.init (s01 + 1), Rx.init (s01 + 1), ?_, rfl, rfl, ?_⟩
  · unfold initBoth
    rw [if_neg (by omega)]
  · obtain ⟨h1, h2, h3, h4, h5, h6, h7⟩ := hp
    obtain ⟨t', i, o, e, -⟩ := packet_safe (tinv_init (n := s01 + 1) (by omega)) p (fun e => by subst e; simp only [List.length_nil] at h3; omega)
      (fun h20 hpr hf => by
        have e := ipLen_eq p
        obtain ⟨a, b⟩ := h7 ⟨by show (Ip.read p).proto.toNat = 6; rw [hpr]; rfl, by rw [← get16_word]; exact and_3fff.1 hf⟩
        exact ⟨by omega, by omega⟩)
    exact ⟨_, e⟩

example : ∃ t r, initBoth 15 = some (t, r) ∧ t.n = 16 ∧ r.n = 16 ∧ ∃ v, t.packet (segment 1 202 0x18 100 [1, 2, 3]) = .ok v :=
  c135_partial (by decide) (by decide +kernel)

end Verif.Props
