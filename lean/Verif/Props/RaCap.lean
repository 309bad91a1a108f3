import Verif.Csn1.RaShort

/-!
# C184, C185, C186: MS Radio Access capability

The value part of the information element on its own, as written by `osmo_gprs_rlcmac_encode_ms_ra_cap()`
and read by `osmo_gprs_rlcmac_decode_ms_ra_cap()`.  What a capability consists of is written down in
`Spec/RaCap` from 3GPP TS 24.008, 10.5.5.12a.  In memory the number of entries is at address 0 and entry
`j` is at `1 + 69 j`.
-/
namespace Verif.Props

open Verif.Csn1 Verif.Spec

/-! ## C184 -/

/-- A structure with one entry in the short form, of two additional technologies. -/
def shortRa : Mem := fun a =>
  (([(0, 1), (1, 14), (2, 2), (3, 4), (4, 5), (5, 1), (6, 3), (7, 2), (8, 1)] : List (Nat × Nat)).find? fun p => p.1 == a).elim 0 Prod.snd

/-- The bits of `shortRa`: technology 15, 21 bits, two additional technologies, no more entries. -/
def shortBits : List Bool :=
  natBits 4 15 ++ natBits 7 21 ++ (true :: natBits 4 4 ++ natBits 3 5 ++ natBits 2 1) ++
    (true :: natBits 4 3 ++ natBits 3 2 ++ natBits 2 1) ++ [false] ++ [false]

theorem short_parts : ∃ l, raParts shortRa = some l ∧ (∀ i ∈ l, i.Fits shortRa) ∧ size l = 33 ∧ code shortRa l = shortBits := by
  have h : ((raParts shortRa).any fun l => l.all (fun i => decide (i.Fits shortRa)) && (size l == 33) &&
      (code shortRa l == shortBits)) = true := by decide +kernel
  cases e : raParts shortRa with
  | none => rw [e] at h; cases h
  | some l =>
    rw [e] at h
    simp only [Option.any_some, Bool.and_eq_true, List.all_eq_true, decide_eq_true_eq, beq_iff_eq] at h
    exact ⟨l, rfl, h.1.1, h.1.2, h.2⟩

/-- **C184** Every capability that fits a buffer is written to it exactly as its fields say, and the rest of
the buffer is padded. -/
def C184Statement : Prop := ∀ (m : Mem) (l : List Item) (n : Nat) (vec : Nat → Bool), raParts m = some l →
  (∀ i ∈ l, i.Fits m) → size l ≤ 8 * n →
  ∃ s, encodeRaCap m n vec = .ok s ∧ s.bits (8 * n) = code m l ++ raPadding n (size l)

/-- The bit that ends the list of additional technologies is not counted, so the padding is shifted. -/
theorem c184_violated : ¬ C184Statement := by
  intro h
  obtain ⟨l, h1, h2, h3, h4⟩ := short_parts
  obtain ⟨s, h5, h6⟩ := h shortRa l 5 (fun _ => false) h1 h2 (by omega)
  rw [h3, h4] at h6
  have : (match encodeRaCap shortRa 5 (fun _ => false) with
    | .ok s => s.bits (8 * 5) == shortBits ++ raPadding 5 33
    | _ => false) = false := by decide +kernel
  rw [h5] at this
  rw [show (match (CRes.ok s : CRes ESt) with
    | .ok s => s.bits (8 * 5) == shortBits ++ raPadding 5 33
    | _ => false) = (s.bits (8 * 5) == shortBits ++ raPadding 5 33) from rfl, h6] at this
  simp at this

/-- **C184** for every capability of 1 to 11 entries in the long form, against the fields of TS 24.008, into
a buffer of any number of octets that is long enough, whatever it contained before.  Missing: the padding
behind entries in the short form, which is wrong. -/
theorem c184_partial (m : Mem) (l : List RaEntry) (n : Nat) (vec : Nat → Bool) (hne : l ≠ []) (hl : l.length ≤ 11)
    (hok : ∀ e ∈ l, e.Ok) (hn : m 0 % 256 = l.length)
    (hf : ∀ (j : Nat) (e : RaEntry), l[j]? = some e → e.Filled m (1 + j * 69)) (hs : (raBits l).length ≤ 8 * n) :
    ∃ s, encodeRaCap m n vec = .ok s ∧ s.bits (8 * n) = raBits l ++ raPadding n (raBits l).length :=
  raCap_enc hne hl hok hn hf hs

/-- **C184** but for the padding, for every capability that fits: the buffer begins with its bits. -/
theorem c184_starts_partial (m : Mem) (l : List Item) (n : Nat) (vec : Nat → Bool) (h : raParts m = some l)
    (hf : ∀ i ∈ l, i.Fits m) (hs : size l ≤ 8 * n) :
    ∃ s, encodeRaCap m n vec = .ok s ∧ Contains (s.bits (8 * n)) 0 (code m l) := by
  obtain ⟨s, h1, h2, _⟩ := encodeRaCap_parts (n := n) (vec := vec) h hf hs
  exact ⟨s, h1, contains_reads.mpr h2⟩

/-- A structure with two entries: GSM-E with A5 bits and multislot classes, and GSM 1800 with nothing
optional. -/
def sampleRa : Mem := fun a =>
  (([(0, 2), (1, 1), (2, 3), (3, 1), (4, 0x5a), (5, 1), (9, 1), (12, 1), (13, 12), (14, 1), (68, 2), (69, 1), (70, 3), (71, 1)] : List (Nat × Nat)).find? fun p => p.1 == a).elim 0 Prod.snd

def sampleEntry (j : Nat) : RaEntry :=
  { tech := sampleRa (1 + j * 69), content := fun o => sampleRa (1 + j * 69 + 1 + o), known := 39, later := [] }

theorem sampleEntry_ok : ∀ e ∈ [sampleEntry 0, sampleEntry 1], e.Ok := by
  have h : ∀ j, j < 2 → (sampleEntry j).Ok := by
    intro j hj
    obtain rfl | rfl : j = 0 ∨ j = 1 := by omega
    all_goals
      refine ⟨by decide +kernel, fun o w hw => ?_, by decide, by decide +kernel, Or.inl rfl⟩
      have ho : o < 68 := (List.getElem?_eq_some_iff.mp hw).1
      revert hw
    · have : ∀ o : Fin 68, contentWidths[o.val]?.all (fun w => (sampleEntry 0).content o.val < 2 ^ w) = true := by decide +kernel
      intro hw
      have := this ⟨o, ho⟩
      rw [hw] at this
      exact of_decide_eq_true this
    · have : ∀ o : Fin 68, contentWidths[o.val]?.all (fun w => (sampleEntry 1).content o.val < 2 ^ w) = true := by decide +kernel
      intro hw
      have := this ⟨o, ho⟩
      rw [hw] at this
      exact of_decide_eq_true this
  intro e he
  rcases List.mem_cons.mp he with rfl | he
  · exact h 0 (by decide)
  · rw [List.mem_singleton] at he; subst he; exact h 1 (by decide)

/-- Not vacuous: two entries, in 18 octets. -/
example : sampleRa 0 % 256 = 2 ∧
    (∀ (j : Nat) (e : RaEntry), [sampleEntry 0, sampleEntry 1][j]? = some e → e.Filled sampleRa (1 + j * 69)) ∧
    (raBits [sampleEntry 0, sampleEntry 1]).length = 137 ∧
    (raBits [sampleEntry 0, sampleEntry 1]).take 24 =
      natBits 4 1 ++ natBits 7 66 ++ natBits 3 3 ++ [true] ++ natBits 7 0x5a ++ [true, false] := by
  have f : ∀ j, j < 2 → (sampleEntry j).Filled sampleRa (1 + j * 69) := by
    intro j hj
    refine ⟨?_, fun o ho => ?_, rfl, rfl⟩
    · obtain rfl | rfl : j = 0 ∨ j = 1 := by omega
      all_goals decide +kernel
    · show sampleRa _ % 256 = sampleRa _
      refine Nat.mod_eq_of_lt ?_
      have : ∀ x : Fin 139, sampleRa x.val < 256 := by decide +kernel
      exact this ⟨_, by omega⟩
  refine ⟨rfl, fun j e he => ?_, by decide +kernel, by decide +kernel⟩
  match j with
  | 0 => obtain rfl := Option.some.inj he; exact f 0 (by decide)
  | 1 => obtain rfl := Option.some.inj he; exact f 1 (by decide)
  | j + 2 => simp at he

/-! ## C185 -/

/-- **C185** Read: every capability of 1 to 11 entries in the long form from senders of any release, from a
buffer of any number of octets, whatever follows and whatever the structure contained before.  Each entry
may have been cut behind any field, or go on behind the last one known. -/
theorem c185 (v : List Bool) (l : List RaEntry) (n : Nat) (m0 : Mem) (hne : l ≠ []) (hl : l.length ≤ 11)
    (hok : ∀ e ∈ l, e.Ok) (hv : Contains v 0 (raBits l)) (hn : (raBits l).length ≤ 8 * n) :
    ∃ s, decodeRaCap v n m0 = .ok s ∧ s.mem 0 = l.length ∧
      ∀ (j : Nat) (e : RaEntry), l[j]? = some e → e.In s.mem (1 + j * 69) :=
  raCap_dec hne hl hok (contains_reads.mp hv) hn

/-- An entry of an old sender, ending with the eighth field, and one of a new sender with five more bits. -/
def oldEntry : RaEntry := { sampleEntry 0 with known := 8 }
def newEntry : RaEntry := { sampleEntry 1 with later := [true, false, true, true, false] }

/-- Not vacuous: an entry from an old sender between entries from new ones. -/
example : (∀ e ∈ [newEntry, oldEntry, newEntry], e.Ok) ∧ (raBits [newEntry, oldEntry, newEntry]).length ≤ 8 * 26 ∧
    oldEntry.body.length < (sampleEntry 0).body.length := by
  have h0 := sampleEntry_ok (sampleEntry 0) (by simp)
  have h1 := sampleEntry_ok (sampleEntry 1) (by simp)
  have ho : oldEntry.Ok := ⟨h0.tech, h0.fits, by decide, by decide +kernel, Or.inl rfl⟩
  have hn : newEntry.Ok := ⟨h1.tech, h1.fits, by decide, by decide +kernel, Or.inr (by decide)⟩
  refine ⟨fun e he => ?_, by decide +kernel, by decide +kernel⟩
  simp only [List.mem_cons, List.not_mem_nil, or_false] at he
  rcases he with rfl | rfl | rfl
  · exact hn
  · exact ho
  · exact hn

/-! ## C186 -/

/-- **C186** A capability is written if, and only if, the buffer is long enough for all of it, and is read
back from there. -/
def C186Statement : Prop := ∀ (m m0 : Mem) (l : List Item) (n : Nat) (vec : Nat → Bool), raParts m = some l →
  (∀ i ∈ l, i.Fits m) →
  ((∃ s, encodeRaCap m n vec = .ok s) ↔ size l ≤ 8 * n) ∧
  ∀ s, encodeRaCap m n vec = .ok s → ∃ s', decodeRaCap (s.bits (8 * n)) n m0 = .ok s' ∧
    ∀ a, s'.mem a = if carried l a then m a % 256 else m0 a

/-- `shortRa` has 33 bits; with a buffer of 4 octets success is returned, and the library itself cannot read
what it wrote. -/
theorem c186_short_form :
    ∃ s, encodeRaCap shortRa 4 (fun _ => false) = .ok s ∧ ∃ e, decodeRaCap (s.bits 32) 4 (fun _ => 0) = .fail e := by
  have h : (match encodeRaCap shortRa 4 (fun _ => false) with
    | .ok s => (match decodeRaCap (s.bits 32) 4 (fun _ => 0) with
      | .fail _ => true
      | _ => false)
    | _ => false) = true := by decide +kernel
  cases e : encodeRaCap shortRa 4 (fun _ => false) with
  | ok s =>
    rw [e] at h
    cases e2 : decodeRaCap (s.bits 32) 4 (fun _ => 0) with
    | fail x => exact ⟨s, rfl, x, e2⟩
    | ok x => simp [e2] at h
    | ub x => simp [e2] at h
  | fail x => rw [e] at h; cases h
  | ub x => rw [e] at h; cases h

theorem c186_violated : ¬ C186Statement := by
  intro h
  obtain ⟨l, h1, h2, h3, _⟩ := short_parts
  obtain ⟨s, h4, _⟩ := c186_short_form
  have := (h shortRa (fun _ => 0) l 4 (fun _ => false) h1 h2).1.mp ⟨s, h4⟩
  omega

/-- **C186**, written if and only if there is room: every capability of entries in the long form, a buffer of
any number of octets. -/
theorem c186_room_partial (m : Mem) (l : List RaEntry) (n : Nat) (vec : Nat → Bool) (hne : l ≠ []) (hl : l.length ≤ 11)
    (hok : ∀ e ∈ l, e.Ok) (hn : m 0 % 256 = l.length)
    (hf : ∀ (j : Nat) (e : RaEntry), l[j]? = some e → e.Filled m (1 + j * 69)) :
    (∃ s, encodeRaCap m n vec = .ok s) ↔ (raBits l).length ≤ 8 * n := by
  constructor
  · rintro ⟨s, h⟩
    apply Classical.byContradiction
    intro hc
    obtain ⟨e, he⟩ := raCap_short (vec := vec) hne hl hok hn hf (show 8 * n < (raBits l).length by omega)
    rw [he] at h
    cases h
  · intro h
    obtain ⟨s, h, _⟩ := raCap_enc (vec := vec) hne hl hok hn hf h
    exact ⟨s, h⟩

/-- **C186**, written and read back: every capability, entries in the short form included, that fits. -/
theorem c186_round_trip_partial (m m0 : Mem) (l : List Item) (n : Nat) (vec : Nat → Bool) (h : raParts m = some l)
    (hf : ∀ i ∈ l, i.Fits m) (hs : size l ≤ 8 * n) :
    ∃ s s', encodeRaCap m n vec = .ok s ∧ decodeRaCap (s.bits (8 * n)) n m0 = .ok s' ∧
      ∀ a, s'.mem a = if carried l a then m a % 256 else m0 a := by
  obtain ⟨s, h1, h2, _⟩ := encodeRaCap_parts (n := n) (vec := vec) h hf hs
  obtain ⟨s', h3, h4⟩ := decodeRaCap_parts (m0 := m0) h hf hs h2
  exact ⟨s, s', h1, h3, fun a => by rw [h4]; rfl⟩

/-- Not vacuous: `shortRa` in 5 octets, and nothing but the nine octets of the structure is stored. -/
example : ∃ l, raParts shortRa = some l ∧ (∀ i ∈ l, i.Fits shortRa) ∧ size l ≤ 8 * 5 ∧
    (List.range 12).map (carried l) = List.replicate 9 true ++ [false, false, false] := by
  obtain ⟨l, h1, h2, h3, _⟩ := short_parts
  refine ⟨l, h1, h2, by omega, ?_⟩
  have : ((raParts shortRa).any fun l => (List.range 12).map (carried l) == List.replicate 9 true ++ [false, false, false]) = true := by
    decide +kernel
  rw [h1] at this
  simpa using this

end Verif.Props
