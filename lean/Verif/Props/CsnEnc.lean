import Verif.Csn1.LayTop
import Verif.Csn1.SentLemmas

/-!
# C118 – C122: encoding and decoding of RLC/MAC control messages

A structure in memory `m` stands for the message with the parts `ulParts m` (`Spec/CsnMsg`), listed from
the table of its message type.
-/
namespace Verif.Props

open Verif.Csn1 Verif.Spec

/-- A structure whose members are zero but for the message type, payload type 1, and some octets. -/
def sampleMsg (mt : Nat) (l : List (Nat × Nat)) : Mem := fun a =>
  if a = 0 then mt else if a = 1 then 1 else ((l.find? fun p => p.1 == a).map Prod.snd).getD 0

/-! ## C118 -/

/-- **C118**, full statement: encoding a structure gives the bits of its parts in order, then padding. -/
def C118Statement : Prop :=
  ∀ (m : Mem) (l : List Item), ulParts m = some l → (∀ i ∈ l, i.Fits m) → size l ≤ 184 →
    ∃ s, encodeUplink m = .ok s ∧ s.bits 184 = padded (code m l)

/-- **C118**, proved part: for every structure without a list of structures the block has exactly these
bits.  Missing: padding behind lists of structures (PACKET PSI STATUS, PACKET SI STATUS, PACKET ENHANCED
MEASUREMENT REPORT). -/
theorem c118_encoding_exact_partial (m : Mem) (l : List Item) (h : ulParts m = some l) (hf : ∀ i ∈ l, i.Fits m)
    (hs : size l ≤ 184) (hk : lists l = 0) :
    ∃ s, encodeUplink m = .ok s ∧ s.bits 184 = padded (code m l) := by
  obtain ⟨s, h1, _, h3⟩ := encode_parts h hf hs
  exact ⟨s, h1, h3 hk⟩

/-- **C118**, proved part: with lists too, the block starts with the bits of the parts. -/
theorem c118_encoding_starts_partial (m : Mem) (l : List Item) (h : ulParts m = some l) (hf : ∀ i ∈ l, i.Fits m)
    (hs : size l ≤ 184) : ∃ s, encodeUplink m = .ok s ∧ Contains (s.bits 184) 0 (code m l) := by
  obtain ⟨s, h1, h2, _⟩ := encode_parts h hf hs
  exact ⟨s, h1, contains_reads.mpr h2⟩

/-- Not vacuous: PACKET MOBILE TBF STATUS for a given TFI. -/
example : ∃ l, ulParts (sampleMsg 6 [(5, 9), (6, 3)]) = some l ∧ (∀ i ∈ l, i.Fits (sampleMsg 6 [(5, 9), (6, 3)])) ∧
    size l = 24 ∧ lists l = 0 := by
  refine ⟨_, rfl, ?_, rfl, rfl⟩
  decide +kernel

theorem c118_violated : ¬ C118Statement := by
  intro h
  obtain ⟨s, h1, h2⟩ := h (sampleMsg 7 []) _ rfl (by decide +kernel) (by decide)
  have hn : (match encodeUplink (sampleMsg 7 []) with
    | .ok s => decide (s.bits 184 = padded (code (sampleMsg 7 []) ((ulParts (sampleMsg 7 [])).getD [])))
    | _ => false) = false := by decide +kernel
  rw [h1] at hn
  exact of_decide_eq_false hn h2

/-! ## C119 -/

/-- **C119**, full statement: whatever is encoded successfully can be decoded, giving every member of the
message its value again. -/
def C119Statement : Prop :=
  ∀ (m m0 : Mem) (l : List Item) (s : ESt), ulParts m = some l → (∀ i ∈ l, i.Fits m) →
    (m 1 % 256 = 1 ∨ m 1 % 256 = 2) → encodeUplink m = .ok s →
    ∃ s', decodeUplink .member (s.bits 184) m0 = .ok s' ∧ ∀ a, carried l a = true → s'.mem a = m a % 256

/-- **C119**, proved part: for every structure whose parts fit into a block, encoding succeeds, decoding
the block succeeds, every member that is part of the message has its value again, and nothing else
changes but the length indication.  Missing: structures that do not fit. -/
theorem c119_round_trip_partial (m m0 : Mem) (l : List Item) (h : ulParts m = some l) (hf : ∀ i ∈ l, i.Fits m)
    (hs : size l ≤ 184) (hp : m 1 % 256 = 1 ∨ m 1 % 256 = 2) :
    ∃ s s', encodeUplink m = .ok s ∧ decodeUplink .member (s.bits 184) m0 = .ok s' ∧
      (∀ a, carried l a = true → s'.mem a = m a % 256) ∧
      (∀ a, carried l a = false → a ≠ 1376 → a ≠ 1377 → s'.mem a = m0 a) := by
  obtain ⟨s, h1, h2, _⟩ := encode_parts h hf hs
  obtain ⟨s', h3, h4⟩ := decode_ul (m0 := m0) h hf hs hp h2
  refine ⟨s, s', h1, h3, fun a ha => ?_, fun a ha h5 h6 => ?_⟩
  · rw [h4, if_pos ha]
  · rw [h4, if_neg (by rw [ha]; simp), if_neg (show ¬a = ulUnion from h5),
      if_neg (show ¬a = ulUnion + 1 from h6)]

/-- Not vacuous: PACKET CELL CHANGE NOTIFICATION and the list of PACKET SI STATUS. -/
example : (∃ l, ulParts (sampleMsg 12 [(5, 7), (12, 99)]) = some l ∧ (∀ i ∈ l, i.Fits (sampleMsg 12 [(5, 7), (12, 99)])) ∧
      size l = 52) ∧
    (∃ l, ulParts (sampleMsg 13 [(4, 1), (6, 1), (7, 5), (8, 3)]) = some l ∧
      (∀ i ∈ l, i.Fits (sampleMsg 13 [(4, 1), (6, 1), (7, 5), (8, 3)])) ∧ lists l = 1 ∧ size l ≤ 184) :=
  ⟨⟨_, rfl, by decide +kernel, by decide⟩, ⟨_, rfl, by decide +kernel, by decide, by decide⟩⟩

/-- PACKET CELL CHANGE NOTIFICATION with every member 1, which needs 203 bits. -/
def longCcn : Mem := fun a => if a = 0 then 12 else 1

theorem c119_violated : ¬ C119Statement := by
  intro h
  have he : ∃ s, encodeUplink longCcn = .ok s := by
    have : (match encodeUplink longCcn with | .ok _ => true | _ => false) = true := by decide +kernel
    revert this
    cases encodeUplink longCcn with
    | ok s => exact fun _ => ⟨s, rfl⟩
    | fail c => exact fun h => nomatch h
    | ub f => exact fun h => nomatch h
  obtain ⟨s, hs⟩ := he
  obtain ⟨s', h1, h2⟩ := h longCcn (fun _ => 0) _ s rfl (by decide +kernel) (Or.inl rfl) hs
  have h2 := h2 120 (by decide +kernel)
  have hn : (match encodeUplink longCcn with
    | .ok s => match decodeUplink .member (s.bits 184) (fun _ => 0) with
      | .ok s' => s'.mem 120 == 1
      | _ => false
    | _ => false) = false := by decide +kernel
  rw [hs] at hn
  dsimp only at hn
  rw [h1] at hn
  dsimp only at hn
  rw [h2] at hn
  cases hn

/-! ## C120 -/

/-- **C120** The blocks the station sends have exactly the bits of their messages: for every identity, TFI,
window report and queue. -/
theorem c120_sent_messages (tlli tfi octets : Nat) (final : Bool) (d : Rlc.AckDesc) (req : Option (Nat × Nat))
    (ht : tlli < 2 ^ 32) (hi : tfi < 32) (ho : octets < 2 ^ 16) (hs : d.ssn < 128) (hl : d.rbb.length = 8)
    (hq : ∀ p ∈ req, p.1 < 4 ∧ p.2 < 2 ^ 16) :
    (∃ s, encodeUplink (ulDummy tlli) = .ok s ∧ s.bits 184 = padded (ulDummyBits tlli)) ∧
    (∃ s, encodeUplink (ctrlAck tlli) = .ok s ∧ s.bits 184 = padded (ctrlAckBits tlli)) ∧
    (∃ s, encodeUplink (resourceReq tlli octets) = .ok s ∧ s.bits 184 = padded (resourceReqBits tlli octets)) ∧
    (∃ s, encodeUplink (dlAckNack tfi final d req) = .ok s ∧
      s.bits 184 = padded (dlAckBits tfi final d.ssn (octBits d.rbb) req)) :=
  ⟨ulDummy_bits ht, ctrlAck_bits ht, resourceReq_bits ht ho, dlAckNack_bits hi hs hl hq⟩

/-- The bitmap in the block is that of the window report, bit by bit. -/
theorem c120_bitmap (d : Rlc.AckDesc) (hl : d.rbb.length = 8) (i : Nat) (hi : i < 64) :
    (octBits d.rbb)[i]? = some (Verif.bitAt d.rbb i) := octBits_at _ i (by omega)

/-- Not vacuous: a report for TFI 5 with 37 frames of octets waiting. -/
example : (5 : Nat) < 32 ∧ (Rlc.AckDesc.mk 17 [0, 0, 0, 0, 0, 1, 0xff, 0xfe]).rbb.length = 8 ∧
    (∀ p ∈ some (3, 3700), p.1 < 4 ∧ p.2 < 2 ^ 16) := by
  refine ⟨by decide, rfl, ?_⟩
  intro p hp
  cases hp
  decide

/-! ## C121 -/

/-- **C121**, full statement: every uplink message type can be encoded: without undefined behaviour, even
if nothing but the message type is filled in. -/
def C121Statement : Prop :=
  ∀ mt, (ulTable mt).isSome → ∃ s, encodeUplink (sampleMsg mt []) = .ok s

/-- **C121**, proved part: every message type but PACKET PAUSE.  Missing: that one. -/
theorem c121_every_type_partial (mt : Nat) (h : (ulTable mt).isSome) (h9 : mt ≠ 9) :
    ∃ s, encodeUplink (sampleMsg mt []) = .ok s := by
  obtain ⟨t, ht⟩ := Option.isSome_iff_exists.mp h
  have hlt := (ulTable_head ht h9).1
  have hall : ∀ mt : Fin 14, mt.val ≠ 9 →
      (match encodeUplink (sampleMsg mt.val []) with | .ok _ => true | _ => false) = true := by decide +kernel
  have := hall ⟨mt, hlt⟩ h9
  dsimp only at this
  revert this
  cases encodeUplink (sampleMsg mt []) with
  | ok s => exact fun _ => ⟨s, rfl⟩
  | fail c => exact fun h => nomatch h
  | ub f => exact fun h => nomatch h

/-- **C121**, proved part: no structure whose message fits makes the encoder read outside of a member. -/
theorem c121_confined_partial (m : Mem) (l : List Item) (h : ulParts m = some l) (hf : ∀ i ∈ l, i.Fits m)
    (hs : size l ≤ 184) (f : Fault) : encodeUplink m ≠ .ub f := by
  obtain ⟨s, h1, _⟩ := encode_parts h hf hs
  rw [h1]
  exact fun h => nomatch h

/-- PACKET PAUSE: the bitmap of 48 bits is read as 64. -/
theorem c121_violated : ¬ C121Statement ∧ ∀ m : Mem, m 0 % 256 = 9 → encodeUplink m = .ub .outOfBounds := by
  have hall : ∀ m : Mem, m 0 % 256 = 9 → encodeUplink m = .ub .outOfBounds := by
    intro m h9
    unfold encodeUplink
    rw [h9]
    rfl
  refine ⟨fun h => ?_, hall⟩
  obtain ⟨s, hs⟩ := h 9 rfl
  rw [hall _ rfl] at hs
  cases hs

/-! ## C122 -/

/-- **C122** Every downlink message is understood: a block with a control message of a known type, whatever
optional octets precede it, whose bits are those of the parts of a structure `m` in order, is decoded to the
members of `m`; members that are not part of the message keep their values; the poll bit and the reservation of the
header are reported. -/
theorem c122_downlink_understood (v : List Bool) (m m0 : Mem) (mt st : Nat) (l : List Item)
    (hst : dlStart v = some st) (h : dlParts mt m = some l) (hf : ∀ i ∈ l, i.Fits m) (hs : st + size l ≤ 184)
    (ht : fieldAt v st 6 = mt) (hr : Contains v st (code m l)) :
    ∃ s, decodeDownlink .member v m0 = .ok s ∧ (∀ a, carried l a = true → s.mem a = m a % 256) ∧
      (∀ a, carried l a = false → a ≠ 0 → a < dlUnion → s.mem a = m0 a) ∧ (carried l 0 = false → s.mem 0 = mt) ∧
      s.mem (dlUnion + 1) % 256 = fieldAt v 2 2 ∧ s.mem (dlUnion + 2) % 256 = fieldAt v 4 1 := by
  rw [fieldAt_eq, fieldAt_eq]
  exact decode_dl_hdr hst h hf hs (by rw [← fieldAt_eq]; exact ht) (contains_reads.mp hr)

/-- A PACKET UPLINK ASSIGNMENT with dynamic allocation for TLLI 0x5678, behind an octet with a TFI. -/
def puaMem : Mem := fun a =>
  if a = 0 then 10 else if a = 8 ∨ a = 56 then 1 else if a = 12 then 0x78 else if a = 13 then 0x56 else 0

def puaBlock : List Bool :=
  natBits 8 0x80 ++ natBits 8 0x01 ++ natBits 8 0x0a ++ code puaMem ((dlParts 10 puaMem).getD []) ++
    List.replicate 92 false

/-- Not vacuous. -/
example : dlStart puaBlock = some 24 ∧ (∃ l, dlParts 10 puaMem = some l ∧ (∀ i ∈ l, i.Fits puaMem) ∧
    24 + size l ≤ 184 ∧ size l = 68 ∧ Contains puaBlock 24 (code puaMem l)) ∧ fieldAt puaBlock 24 6 = 10 :=
  ⟨by decide +kernel, ⟨_, rfl, by decide +kernel, by decide +kernel, by decide +kernel, by decide +kernel⟩,
    by decide +kernel⟩

end Verif.Props
