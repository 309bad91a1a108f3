import Verif.Csn1.MsgLemmas

/-!
# C99, C100: decoding keeps to the result structure, and fields to their members
-/
namespace Verif.Props

open Csn1 Spec

/-! ## C99 -/

/-- Every downlink table passes the check for stores within the structure. -/
theorem c99_dlTables : ∀ mt : Fin 64, (dlTable mt.val).all (ckL (.object dlSize) 176 0 [] [] 0) = true := by
  decide +kernel

/-- Every uplink table passes the check for stores within the structure. -/
theorem c99_ulTables : ∀ mt : Fin 64, (ulTable mt.val).all (ckL (.object ulSize) 184 0 [] [] 0) = true := by
  decide +kernel

/-- **C99** (downlink).  Whatever the bits of a downlink control block, and whatever the memory held
before, decoding it keeps to the caller's `RlcMacDownlink_t`. -/
theorem c99_downlink (v : List Bool) (m : Mem) :
    KeepsTo dlSize m (decodeDownlink (.object dlSize) v m) := by
  refine ⟨?_, fun t h => decodeDownlink_hi h⟩
  exact decodeDownlink_safe (fun off ho => decide_eq_true (by unfold dlUnion at ho; unfold dlSize; omega))
    (by decide) fun t h => by
      have := c99_dlTables ⟨dlMessageType v, bitsVal_lt v 6 _⟩
      dsimp only at this
      rw [h] at this
      exact this

/-- **C99** (uplink). -/
theorem c99_uplink (v : List Bool) (m : Mem) :
    KeepsTo ulSize m (decodeUplink (.object ulSize) v m) := by
  refine ⟨?_, fun t h => decodeUplink_hi h⟩
  exact decodeUplink_safe (by decide) (by decide) fun t h => by
      have := c99_ulTables ⟨bitsVal v 8 6, bitsVal_lt v 6 _⟩
      dsimp only at this
      rw [h] at this
      exact this

/-- **C99** (rest octets of an immediate assignment: at most 11 octets). -/
theorem c99_immAss (v : List Bool) (m : Mem) (n : Nat) (hn : n ≤ 11) :
    KeepsTo 80 m (decodeRest (.object 80) t_IA_RestOctets v n m) :=
  ⟨decodeRest_safe (R := 88) (by decide +kernel) (by omega), fun _ h => decodeRest_hi h⟩

/-- **C99** (rest octets of system information type 13: 20 octets). -/
theorem c99_si13 (v : List Bool) (m : Mem) (n : Nat) (hn : n ≤ 20) :
    KeepsTo 84 m (decodeRest (.object 84) t_SI13_RestOctets v n m) :=
  ⟨decodeRest_safe (R := 160) (by decide +kernel) (by omega), fun _ h => decodeRest_hi h⟩

/-- **C99** (rest octets of a paging request type 1: at most 18 octets). -/
theorem c99_p1 (v : List Bool) (m : Mem) (n : Nat) (hn : n ≤ 18) :
    KeepsTo 44 m (decodeRest (.object 44) t_P1_Rest_Octets v n m) :=
  ⟨decodeRest_safe (R := 144) (by decide +kernel) (by omega), fun _ h => decodeRest_hi h⟩

/-- **C99** (rest octets of a paging request type 2, any number of octets a C `int` can count the bits
of). -/
theorem c99_p2 (v : List Bool) (m : Mem) (n : Nat) (hn : 8 * n < 2 ^ 31) :
    KeepsTo 12 m (decodeRest (.object 12) t_P2_Rest_Octets v n m) :=
  ⟨decodeRest_safe (R := 2 ^ 31) (by decide +kernel) (by omega), fun _ h => decodeRest_hi h⟩

/-- **C99** (MS radio access capabilities, any number of octets). -/
theorem c99_raCap (v : List Bool) (m : Mem) (n : Nat) (hn : 8 * n < 2 ^ 31) :
    KeepsTo 760 m (decodeRest (.object 760) t_MS_Radio_Access_capability v n m) :=
  ⟨decodeRest_safe (R := 2 ^ 31) (by decide +kernel) (by omega), fun _ h => decodeRest_hi h⟩

/-- The theorems are about real messages: this packet polling request for a TLLI is decoded, with its
message type at the start of the structure. -/
example : (match decodeDownlink (.object dlSize) (bitsOf [0x40, 0x12, 0x91, 0x23, 0x45, 0x67, 0x8b, 0x2b, 0x2b,
    0x2b, 0x2b, 0x2b, 0x2b, 0x2b, 0x2b, 0x2b, 0x2b, 0x2b, 0x2b, 0x2b, 0x2b, 0x2b, 0x2b]) (fun _ => 0xff) with
    | .ok s => s.byte 0 == 4
    | _ => false) = true := by decide +kernel

/-! ## C100 -/

/-- **C100**, full statement.  Decoding a field stores only into the member of the result structure the
field belongs to, for every message and every input. -/
def C100Statement : Prop :=
  (∀ v m u, decodeDownlink .member v m ≠ .ub u) ∧ (∀ v m u, decodeUplink .member v m ≠ .ub u) ∧
  (∀ v m u n, n ≤ 11 → decodeRest .member t_IA_RestOctets v n m ≠ .ub u) ∧
  (∀ v m u n, n ≤ 20 → decodeRest .member t_SI13_RestOctets v n m ≠ .ub u) ∧
  (∀ v m u n, n ≤ 17 → decodeRest .member t_P1_Rest_Octets v n m ≠ .ub u) ∧
  (∀ v m u n, 8 * n < 2 ^ 31 → decodeRest .member t_P2_Rest_Octets v n m ≠ .ub u) ∧
  (∀ v m u n, 8 * n < 2 ^ 31 → decodeRest .member t_MS_Radio_Access_capability v n m ≠ .ub u)

/-- The downlink message types whose decoding can store outside a member: packet cell change order,
packet downlink assignment, packet measurement order, packet timeslot reconfigure, packet uplink
assignment, packet handover command, packet paging request, PSI2, PSI3 and PSI13. -/
def c100_dlTypes : List Nat := [1, 2, 3, 7, 10, 21, 34, 50, 51, 55]

/-- The uplink message types whose decoding can store outside a member: packet measurement report, packet
pause, packet enhanced measurement report and packet cell change notification. -/
def c100_ulTypes : List Nat := [4, 9, 10, 12]

/-- Blocks of those types. -/
def c100_dlBlock : Nat → List Bool
  | 1 =>
    bitsOf [0x40, 0x04, 0x10, 0x20, 0x08, 0x67, 0x84, 0x5c, 0x06, 0x04, 0x40, 0x29, 0x20, 0x40, 0x01, 0x00,
    0x20, 0x08, 0x14, 0x20, 0xca, 0x61, 0x22]
  | 2 =>
    bitsOf [0x40, 0x08, 0xb3, 0xfc, 0x99, 0x6f, 0xf7, 0xbd, 0xf4, 0x5b, 0xff, 0xdd, 0xf7, 0x3e, 0xfa, 0xee,
    0x8b, 0xd6, 0x8e, 0xe8, 0x6d, 0xf5, 0x86]
  | 3 =>
    bitsOf [0x40, 0x0d, 0x9a, 0xa6, 0x40, 0xd0, 0x1c, 0x38, 0x81, 0x84, 0x15, 0x48, 0x00, 0x24, 0x86, 0x30,
    0x03, 0x36, 0x04, 0x0a, 0x83, 0x02, 0x18]
  | 7 =>
    bitsOf [0x40, 0x1f, 0x69, 0x22, 0xde, 0xf9, 0x9f, 0xa6, 0x2d, 0x3f, 0xcd, 0x59, 0xb3, 0xc6, 0xd5, 0xbc,
    0x3e, 0x26, 0xe6, 0xb6, 0xf5, 0x30, 0xf9]
  | 10 =>
    bitsOf [0x40, 0x2a, 0xf4, 0xf6, 0xf9, 0xff, 0xf7, 0xfa, 0x78, 0xdf, 0x67, 0x7d, 0xe5, 0x5d, 0xd8, 0x7e,
    0xfd, 0xf0, 0x7b, 0xee, 0xf4, 0x9f, 0x77]
  | 21 =>
    bitsOf [0x40, 0x54, 0x32, 0x02, 0x21, 0x11, 0x42, 0x0c, 0x08, 0xec, 0x02, 0x91, 0xa5, 0x20, 0x00, 0xd8,
    0x22, 0x10, 0x00, 0x04, 0x00, 0x21, 0x00]
  | 34 =>
    bitsOf [0x40, 0x89, 0x33, 0x7b, 0xa6, 0xeb, 0x50, 0xf8, 0x7d, 0xbe, 0x45, 0xef, 0x9e, 0x7e, 0x25, 0x2d,
    0x60, 0x37, 0x9f, 0x71, 0x2a, 0xd4, 0xed]
  | 50 =>
    bitsOf [0x40, 0xca, 0x26, 0x26, 0x40, 0x1a, 0x00, 0x08, 0x00, 0x62, 0x58, 0x00, 0x0d, 0x10, 0x22, 0x1a,
    0xd1, 0x00, 0x04, 0x00, 0x20, 0x04, 0x00]
  | 51 =>
    bitsOf [0x40, 0xcd, 0x51, 0xd1, 0x11, 0x61, 0xb6, 0x33, 0x81, 0x79, 0x66, 0x73, 0x0c, 0xc2, 0x8e, 0x94,
    0xd3, 0x85, 0x04, 0x14, 0x4d, 0x4a, 0x45]
  | 55 =>
    bitsOf [0x40, 0xdf, 0x5d, 0x4e, 0xe7, 0xed, 0xf9, 0xbf, 0x87, 0x7b, 0x99, 0xf6, 0xfb, 0xf3, 0xfd, 0x8f,
    0x9b, 0x79, 0x72, 0xff, 0x75, 0x83, 0x8c]
  | _ => []

/-- Blocks of those types. -/
def c100_ulBlock : Nat → List Bool
  | 4 =>
    bitsOf [0x40, 0x10, 0x12, 0xde, 0x66, 0x82, 0x9e, 0x86, 0x9d, 0xb1, 0x5e, 0x89, 0x73, 0xc7, 0x6b, 0xfe,
    0x65, 0x44, 0x66, 0xac, 0xc4, 0xc4, 0x1f]
  | 9 =>
    bitsOf [0x40, 0x24, 0xa0, 0x21, 0x15, 0x0c, 0x31, 0x40, 0x30, 0x52, 0x02, 0x00, 0x80, 0xdc, 0x01, 0x99,
    0x44, 0x01, 0x07, 0x40, 0x10, 0x04, 0x08]
  | 10 =>
    bitsOf [0x40, 0x28, 0x00, 0x00, 0x00, 0x01, 0x01, 0x00, 0x00, 0x00, 0x00, 0x00, 0x00, 0x00, 0x00, 0x00,
    0x00, 0x00, 0x00, 0x00, 0x00, 0x00, 0x00]
  | 12 =>
    bitsOf [0x40, 0x33, 0x65, 0xfd, 0x9f, 0x7b, 0x77, 0x3b, 0x0d, 0x5f, 0xd9, 0xbe, 0xb1, 0x30, 0xaf, 0x7f,
    0xb8, 0xfe, 0xdf, 0x8f, 0x47, 0xf1, 0xbf]
  | _ => []

/-- Rest octets of an immediate assignment with a long frequency list. -/
def c100_ia : List Bool := bitsOf [0x4b, 0xeb, 0xff, 0xaf, 0xff, 0xff, 0xff, 0xfd, 0xfe, 0x6f, 0xff]

/-- Rest octets of system information type 13 with many RFL numbers. -/
def c100_si : List Bool :=
  bitsOf [0xc9, 0xff, 0xfe, 0xbe, 0xf5, 0xf7, 0xee, 0x73, 0xb8, 0xff, 0xef, 0xff, 0xfc, 0xf7, 0x9e, 0xbc,
    0xe9, 0x57, 0x77, 0xff]

/-- Did the decoder store outside a member? -/
def isUb : CRes CSt → Bool
  | .ub _ => true
  | _ => false

theorem isUb_spec {r : CRes CSt} (h : isUb r = true) : ∃ u, r = .ub u := by
  cases r with
  | ub u => exact ⟨u, rfl⟩
  | ok _ => cases h
  | fail _ => cases h

/-- **C100 is violated**: each of the listed downlink message types has a block of 23 octets that makes
the decoder store outside a member. -/
theorem c100_violated_downlink : ∀ mt ∈ c100_dlTypes, ∃ v : List Bool, v.length = 184 ∧ dlMessageType v = mt ∧
    ∃ u, decodeDownlink .member v (fun _ => 0) = .ub u := by
  have h : ∀ mt ∈ c100_dlTypes, (c100_dlBlock mt).length = 184 ∧ dlMessageType (c100_dlBlock mt) = mt ∧
      isUb (decodeDownlink .member (c100_dlBlock mt) fun _ => 0) = true := by decide +kernel
  intro mt hm
  obtain ⟨h1, h2, h3⟩ := h mt hm
  exact ⟨_, h1, h2, isUb_spec h3⟩

/-- **C100 is violated**: likewise for uplink.  Type 10 takes the number of its reporting quantities from
what the memory held before. -/
theorem c100_violated_uplink : ∀ mt ∈ c100_ulTypes, ∃ v : List Bool, v.length = 184 ∧ ulMessageType v = mt ∧
    ∃ m u, decodeUplink .member v m = .ub u := by
  have h : ∀ mt ∈ c100_ulTypes, (c100_ulBlock mt).length = 184 ∧ ulMessageType (c100_ulBlock mt) = mt ∧
      isUb (decodeUplink .member (c100_ulBlock mt) fun _ => 200) = true := by decide +kernel
  intro mt hm
  obtain ⟨h1, h2, h3⟩ := h mt hm
  exact ⟨_, h1, h2, _, isUb_spec h3⟩

/-- **C100 is violated** for the rest octets of an immediate assignment and of system information
type 13. -/
theorem c100_violated_rest :
    (∃ v u, v.length = 88 ∧ decodeRest .member t_IA_RestOctets v 11 (fun _ => 0) = .ub u) ∧
    ∃ v u, v.length = 160 ∧ decodeRest .member t_SI13_RestOctets v 20 (fun _ => 0) = .ub u := by
  have h1 : isUb (decodeRest .member t_IA_RestOctets c100_ia 11 fun _ => 0) = true := by decide +kernel
  have h2 : isUb (decodeRest .member t_SI13_RestOctets c100_si 20 fun _ => 0) = true := by decide +kernel
  obtain ⟨u1, h1⟩ := isUb_spec h1
  obtain ⟨u2, h2⟩ := isUb_spec h2
  exact ⟨⟨_, u1, by decide +kernel, h1⟩, _, u2, by decide +kernel, h2⟩

theorem c100_violated : ¬ C100Statement := by
  intro h
  obtain ⟨v, _, _, u, hu⟩ := c100_violated_downlink 2 (by decide)
  exact h.1 v _ u hu

theorem c100_dlTables : ∀ mt : Fin 64, mt.val ∉ c100_dlTypes →
    (dlTable mt.val).all (ckL .member 176 0 [] [] 0) = true := by
  decide +kernel

theorem c100_ulTables : ∀ mt : Fin 64, mt.val ∉ c100_ulTypes →
    (ulTable mt.val).all (ckL .member 184 0 [] [] 0) = true := by
  decide +kernel

/-- **C100** (partial): all other downlink message types are decoded member by member, whatever the bits
of the block. -/
theorem c100_downlink_partial (v : List Bool) (m : Mem) (h : dlMessageType v ∉ c100_dlTypes) :
    ∀ u, decodeDownlink .member v m ≠ .ub u :=
  decodeDownlink_safe (fun off ho => rfl) rfl fun t ht => by
    have := c100_dlTables ⟨dlMessageType v, bitsVal_lt v 6 _⟩ h
    dsimp only at this
    rw [ht] at this
    exact this

/-- **C100** (partial): all other uplink message types. -/
theorem c100_uplink_partial (v : List Bool) (m : Mem) (h : ulMessageType v ∉ c100_ulTypes) :
    ∀ u, decodeUplink .member v m ≠ .ub u :=
  decodeUplink_safe rfl rfl fun t ht => by
    have := c100_ulTables ⟨bitsVal v 8 6, bitsVal_lt v 6 _⟩ h
    dsimp only at this
    rw [ht] at this
    exact this

/-- **C100** (partial): paging requests and radio access capabilities. -/
theorem c100_rest_partial (v : List Bool) (m : Mem) (n : Nat) :
    (n ≤ 17 → ∀ u, decodeRest .member t_P1_Rest_Octets v n m ≠ .ub u) ∧
    (8 * n < 2 ^ 31 → ∀ u, decodeRest .member t_P2_Rest_Octets v n m ≠ .ub u) ∧
    (8 * n < 2 ^ 31 → ∀ u, decodeRest .member t_MS_Radio_Access_capability v n m ≠ .ub u) :=
  ⟨fun h => decodeRest_safe (R := 144) (by decide +kernel) (by omega),
    fun h => decodeRest_safe (R := 2 ^ 31) (by decide +kernel) (by omega),
    fun h => decodeRest_safe (R := 2 ^ 31) (by decide +kernel) (by omega)⟩

/-- Among the message types not listed: packet uplink ack/nack (9), packet access reject (33), packet
polling request (4); and packet control acknowledgement (1), packet downlink ack/nack (2), packet
resource request (5) in uplink. -/
example : (∀ mt ∈ [4, 9, 33], (dlTable mt).isSome = true ∧ mt ∉ c100_dlTypes) ∧
    ∀ mt ∈ [1, 2, 5], (ulTable mt).isSome = true ∧ mt ∉ c100_ulTypes := by decide +kernel

end Verif.Props
