import Verif.Csn1.LayDl

/-!
# C176 – C178: encoding of downlink RLC/MAC control messages

A structure in memory `m` stands for the header `hdrOf m` (`Spec/DlHeader`) and the message with the parts
`dlParts` of its message type (`Spec/CsnMsg`).
-/
namespace Verif.Props

open Verif.Csn1 Verif.Spec

/-- A structure whose members are zero but for the message type, payload type 1, and some octets. -/
def sampleDl (mt : Nat) (l : List (Nat × Nat)) : Mem := fun a =>
  if a = 0 then mt else if a = dlUnion then 1 else ((l.find? fun p => p.1 == a).map Prod.snd).getD 0

theorem ok_of_match {r : CRes ESt} (h : (match r with | .ok _ => true | _ => false) = true) : ∃ s, r = .ok s := by
  revert h
  cases r with
  | ok s => exact fun _ => ⟨s, rfl⟩
  | fail c => exact fun h => nomatch h
  | ub f => exact fun h => nomatch h

/-! ## C176 -/

/-- **C176**, full statement: encoding a structure gives the octets of its header, the bits of the parts of the
message in order, then padding; whatever the vector contained. -/
def C176Statement : Prop :=
  ∀ (v0 : Nat → Bool) (m : Mem) (l : List Item), (hdrOf m).Ok → dlParts (m 0 % 256) m = some l → (∀ i ∈ l, i.Fits m) →
    (hdrOf m).bits.length + size l ≤ 184 →
    ∃ s, encodeDownlink v0 m = .ok s ∧ s.bits 184 = padded ((hdrOf m).bits ++ code m l)

/-- **C176**, proved part: for every structure without a list of structures the block has exactly these bits; with
such lists it starts with the header and the parts.  Missing: padding behind lists of structures. -/
theorem c176_partial (v0 : Nat → Bool) (m : Mem) (l : List Item) (ok : (hdrOf m).Ok) (h : dlParts (m 0 % 256) m = some l)
    (hf : ∀ i ∈ l, i.Fits m) (hs : (hdrOf m).bits.length + size l ≤ 184) :
    ∃ s, encodeDownlink v0 m = .ok s ∧ Contains (s.bits 184) 0 ((hdrOf m).bits ++ code m l) ∧
      (lists l = 0 → s.bits 184 = padded ((hdrOf m).bits ++ code m l)) := by
  obtain ⟨s, h1, h2, h3⟩ := encode_dl (v0 := v0) ok.payload h hf hs
  exact ⟨s, h1, contains_reads.mpr h2, h3⟩

/-- A PACKET POLLING REQUEST for TLLI 0x5678 behind a header with all optional octets. -/
def pollMem : Mem := fun a =>
  if a = 0 then 4 else if a = dlUnion then 2 else if a = dlUnion + 4 ∨ a = dlUnion + 7 then 1
  else if a = dlUnion + 9 then 17 else if a = dlUnion + 11 then 5 else if a = dlUnion + 2 then 1 else 0

/-- Not vacuous: four octets of header, and a message. -/
example : (hdrOf pollMem).Ok ∧ (hdrOf pollMem).bits.length = 32 ∧ (hdrOf pollMem).hasTfi ∧ (hdrOf pollMem).hasExt ∧
    ∃ l, dlParts (pollMem 0 % 256) pollMem = some l ∧ (∀ i ∈ l, i.Fits pollMem) ∧ size l = 16 ∧ lists l = 0 := by
  refine ⟨⟨?_, ?_, ?_, ?_, ?_, ?_, ?_, ?_, ?_, ?_, ?_, ?_, ?_, ?_⟩, by decide +kernel, by decide +kernel, by decide +kernel,
    _, rfl, ?_, ?_, ?_⟩ <;> decide +kernel

theorem sampleDl_ok (mt : Nat) : (hdrOf (sampleDl mt [])).Ok := by
  have e : hdrOf (sampleDl mt []) = ⟨1, 0, 0, 0, 0, 0, 0, 0, 0, 0, 0, 0, 0, 0⟩ := rfl
  rw [e]
  constructor <;> decide

/-- An empty PACKET PAGING REQUEST: the end of the list is not counted and the padding is one bit too long. -/
theorem c176_violated : ¬ C176Statement := by
  intro h
  obtain ⟨s, h1, h2⟩ := h dummyVec (sampleDl 34 []) _ (sampleDl_ok 34) rfl (by decide +kernel) (by decide +kernel)
  have hn : (match encodeDownlink dummyVec (sampleDl 34 []) with
    | .ok s => decide (s.bits 184 = padded ((hdrOf (sampleDl 34 [])).bits ++
        code (sampleDl 34 []) ((dlParts 34 (sampleDl 34 [])).getD [])))
    | _ => false) = false := by decide +kernel
  rw [h1] at hn
  exact of_decide_eq_false hn h2

/-! ## C177 -/

/-- **C177**, full statement: whatever a user encodes successfully is received as what it is: same message type, every
member of the message and of the header has its value again. -/
def C177Statement : Prop :=
  ∀ (v0 : Nat → Bool) (m m0 : Mem) (l : List Item) (s : ESt), (hdrOf m).Ok → dlParts (m 0 % 256) m = some l →
    (∀ i ∈ l, i.Fits m) → encodeDownlink v0 m = .ok s →
    ∃ s', decodeDownlink .member (s.bits 184) m0 = .ok s' ∧ s'.mem 0 = m 0 % 256 ∧
      (∀ a, carried l a = true → s'.mem a = m a % 256) ∧ HdrSays (hdrOf m) (hdrOf s'.mem)

/-- **C177**, proved part: for structures whose message fits into the block encoding succeeds, and decoding gives all
that was put in; other members keep what they held.  In a PACKET SYSTEM INFORMATION TYPE 13 the message type has to be
stored in the second octet of the structure, too.  Missing: messages that do not fit, and PSI13 without that. -/
theorem c177_partial (v0 : Nat → Bool) (m m0 : Mem) (l : List Item) (ok : (hdrOf m).Ok)
    (h : dlParts (m 0 % 256) m = some l) (hf : ∀ i ∈ l, i.Fits m) (hs : (hdrOf m).bits.length + size l ≤ 184)
    (h13 : m 0 % 256 = 55 → m 1 % 256 = 55) :
    ∃ s s', encodeDownlink v0 m = .ok s ∧ decodeDownlink .member (s.bits 184) m0 = .ok s' ∧ s'.mem 0 = m 0 % 256 ∧
      (∀ a, carried l a = true → s'.mem a = m a % 256) ∧
      (∀ a, carried l a = false → a ≠ 0 → a < dlUnion → s'.mem a = m0 a) ∧ HdrSays (hdrOf m) (hdrOf s'.mem) := by
  obtain ⟨s, h1, h2, _⟩ := encode_dl (v0 := v0) ok.payload h hf hs
  obtain ⟨r1, r2⟩ := Reads.append.1 h2
  rw [Nat.zero_add] at r2
  have ht : bitsVal (s.bits 184) (hdrOf m).bits.length 6 = m 0 % 256 := by
    by_cases c : m 0 % 256 = 55
    · rw [c] at h
      rw [(type_read (psi13_type h) hf r2).1, h13 c, c]
    · exact (type_read (dlParts_type c h) hf r2).1
  obtain ⟨s', e1, e2, e3, e4, e5⟩ := decode_dl_all (m0 := m0) ok r1 h hf hs ht r2
  refine ⟨s, s', h1, e1, ?_, e2, e3, e5⟩
  cases hc : carried l 0
  · exact e4 hc
  · exact e2 0 hc

/-- Not vacuous: the message above, and a paging request with one page (P-TMSI 0xc0ab0001). -/
example : (pollMem 0 % 256 = 55 → pollMem 1 % 256 = 55) ∧
    ∃ l, dlParts 34 (sampleDl 34 [(9, 1), (12, 0xc0), (13, 0xab), (15, 1)]) = some l ∧ size l = 46 ∧
      (∀ i ∈ l, i.Fits (sampleDl 34 [(9, 1), (12, 0xc0), (13, 0xab), (15, 1)])) ∧ carried l 13 = true := by
  refine ⟨by decide +kernel, _, rfl, ?_, ?_, ?_⟩ <;> decide +kernel

/-- PACKET SYSTEM INFORMATION TYPE 13: the octet taken for the message type is not the member that is sent. -/
theorem c177_violated : ¬ C177Statement := by
  intro h
  have he : ∃ s, encodeDownlink dummyVec (sampleDl 55 []) = .ok s := ok_of_match (by decide +kernel)
  obtain ⟨s, hs⟩ := he
  obtain ⟨s', h1, _⟩ := h dummyVec (sampleDl 55 []) (fun _ => 0) _ s (sampleDl_ok 55) rfl (by decide +kernel) hs
  have hn : (match encodeDownlink dummyVec (sampleDl 55 []) with
    | .ok s => match decodeDownlink .member (s.bits 184) (fun _ => 0) with
      | .ok _ => false
      | _ => true
    | _ => true) = true := by decide +kernel
  rw [hs] at hn
  dsimp only at hn
  rw [h1] at hn
  cases hn

/-- Four pages for circuit switched connections with a priority: 177 bits, where 176 are left. -/
def longPage : Mem := sampleDl 34
  [(7, 1), (9, 4), (10, 1), (12, 0xab), (23, 1), (25, 1), (38, 1), (40, 1), (53, 1), (55, 1), (68, 1)]

/-- Messages that do not fit by one bit are encoded without an error, and the receiver rejects them. -/
theorem c177_long : (∃ l, dlParts 34 longPage = some l ∧ size l = 177 ∧ ∀ i ∈ l, i.Fits longPage) ∧
    ∃ s, encodeDownlink dummyVec longPage = .ok s ∧ ∀ s', decodeDownlink .member (s.bits 184) (fun _ => 0) ≠ .ok s' := by
  refine ⟨⟨_, rfl, by decide +kernel, by decide +kernel⟩, ?_⟩
  have he : ∃ s, encodeDownlink dummyVec longPage = .ok s := ok_of_match (by decide +kernel)
  obtain ⟨s, hs⟩ := he
  refine ⟨s, hs, fun s' h1 => ?_⟩
  have hn : (match encodeDownlink dummyVec longPage with
    | .ok s => match decodeDownlink .member (s.bits 184) (fun _ => 0) with
      | .ok _ => false
      | _ => true
    | _ => true) = true := by decide +kernel
  rw [hs] at hn
  dsimp only at hn
  rw [h1] at hn
  cases hn

/-! ## C178 -/

/-- **C178**, full statement: encoding a structure of a known message type does not read or write where it must
not. -/
def C178Statement : Prop :=
  ∀ (v0 : Nat → Bool) (m : Mem), (hdrOf m).Ok → (dlTable (m 0 % 256)).isSome → ∀ f, encodeDownlink v0 m ≠ .ub f

/-- **C178**, proved part: for every structure whose message fits into the block, and for data blocks, reserved payload
types and unknown message types. -/
theorem c178_partial (v0 : Nat → Bool) (m : Mem) (f : Fault)
    (h : (m dlUnion % 256 = 0 ∨ m dlUnion % 256 = 3) ∨ dlTable (m 0 % 256) = none ∨
      ((hdrOf m).Ok ∧ ∃ l, dlParts (m 0 % 256) m = some l ∧ (∀ i ∈ l, i.Fits m) ∧ (hdrOf m).bits.length + size l ≤ 184)) :
    encodeDownlink v0 m ≠ .ub f := by
  rcases h with h | h | ⟨ok, l, hl, hf, hs⟩
  · unfold encodeDownlink
    rw [if_pos h]
    exact fun h => nomatch h
  · unfold encodeDownlink
    split
    · exact fun h => nomatch h
    · dsimp only
      rw [h]
      exact fun h => nomatch h
  · obtain ⟨s, h1, _⟩ := encode_dl (v0 := v0) ok.payload hl hf hs
    rw [h1]
    exact fun h => nomatch h

/-- PACKET HANDOVER COMMAND: the ARFCN of ten bits is one octet in the structure; two are read. -/
theorem c178_violated : ¬ C178Statement := by
  intro h
  have hn : (match encodeDownlink dummyVec (sampleDl 21 []) with | .ub _ => true | _ => false) = true := by decide +kernel
  have := h dummyVec (sampleDl 21 []) (sampleDl_ok 21) (by decide +kernel)
  revert hn this
  cases encodeDownlink dummyVec (sampleDl 21 []) with
  | ok s => exact fun h => nomatch h
  | fail c => exact fun h => nomatch h
  | ub f => exact fun _ h => absurd rfl (h f)

/-- Not vacuous: a dummy control block. -/
example : (hdrOf (sampleDl 37 [])).Ok ∧ ∃ l, dlParts 37 (sampleDl 37 []) = some l ∧ (∀ i ∈ l, i.Fits (sampleDl 37 [])) ∧
    size l = 9 :=
  ⟨sampleDl_ok 37, _, rfl, by decide +kernel, by decide +kernel⟩

end Verif.Props
