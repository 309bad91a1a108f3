import Verif.Sndcp.V42Safe

/-!
# V.42bis data compression of packets
-/
namespace Verif.Props

open V42

theorem v42_enc_init {p1 p2 : Nat} (h1 : 512 ≤ p1) (h1' : p1 ≤ 4096) (h2 : 6 ≤ p2) (h2' : p2 ≤ 250) :
    Enc (Vs.init p1 p2) ∧ Stable (Vs.init p1 p2) ∧ Base (Vs.init p1 p2) (Vs.init p1 p2) ∧
      ∀ l, Link (Vs.init p1 p2) (Vs.init p1 p2) l := by
  have hg : (Vs.init p1 p2).Good := ⟨by show 0 < 8; omega, by show 0 < 2 ^ 0; omega⟩
  have hw : DWF (Vs.init p1 p2).dict (Vs.init p1 p2).c1 (Vs.init p1 p2).n2 := dwf_init (by show 260 ≤ p1; omega) h1'
  refine ⟨⟨h1, h1', h2, h2', rfl, by show 9 ≤ 9; omega, by show 9 ≤ 12; omega, hw, rfl, rfl, rfl, hg, fun _ => rfl, .inl rfl, .inl rfl⟩,
    ⟨fun _ => by show 2037 ≤ 2048; omega, fun _ => by show 2048 ≤ 2048; omega⟩,
    ⟨h1, h1', h2, h2', rfl, rfl, rfl, rfl, rfl, rfl, rfl, by show 9 ≤ 9; omega, by show 9 ≤ 12; omega, rfl, rfl, rfl, rfl, hw, rfl, rfl, rfl, hg, hg,
      fun _ => rfl, fun _ => rfl, .inl rfl, fun h => absurd rfl h, fun _ => rfl, fun _ => rfl⟩,
    fun l => ⟨fun _ => rfl, fun y l' _ => .inl ⟨rfl, rfl, fun h => absurd rfl h⟩⟩⟩

/-- What the compressor makes of a packet, and what the expander makes of that. -/
theorem v42_packet {p1 p2 : Nat} (h1 : 512 ≤ p1) (h1' : p1 ≤ 4096) (h2 : 6 ≤ p2) (h2' : p2 ≤ 250) (data : List UInt8) :
    ∃ f g r, (Vs.init p1 p2).compress data = .ok f ∧ f.compressFlush = .ok g ∧ 8 * g.out.length ≤ 67 * data.length + 19 ∧
      (Vs.init p1 p2).decompress g.out = .ok r ∧ r.decompressFlush.out = data := by
  obtain ⟨E, S, B, L⟩ := v42_enc_init h1 h1' h2 h2'
  obtain ⟨f, g, k, e1, e2, e3, e4⟩ := enc_ok (2 * data.length) _ data E S (fun _ => rfl) (by omega)
  have e5 : octsBits g.out = k := e3
  obtain ⟨r, r1, r2⟩ := sim (2 * data.length) _ _ data E S B (L data) (by omega) f g k e1 e2 e3 g.out e5
  refine ⟨f, g, r, e1, e2, by rw [← e5, octsBits_length] at e4; exact e4, decompress_of r1, ?_⟩
  obtain ⟨b, u, e6, e7⟩ := sendString_ok r
  unfold Vs.decompressFlush Vs.flushOctets
  rw [e6]
  show u ++ b = data
  rw [e7]
  exact r2

/-! ## C126 -/

/-- **C126**.  With the same dictionary size (up to the 4096 entries of this implementation) and the same longest string on
both sides, any packet is compressed to a packet that is not longer, with index 0 (as it is) or 1, and the other side makes the
original packet of it, in any buffer that has room for it.  The other side must have compression on in this direction. -/
theorem c126 (p0 p0' p1 p2 : Nat) (h1 : 512 ≤ p1) (h1' : p1 ≤ 4096) (h2 : 6 ≤ p2) (h2' : p2 ≤ 250) (hp : p0' &&& 1 ≠ 0)
    (data : List UInt8) :
    ∃ i out, compressUnitdata p0 p1 p2 data = .ok (i, out) ∧ i ≤ 1 ∧ (i = 0 → out = data) ∧ (i = 1 → out.length < data.length) ∧
      ∀ size, data.length ≤ size → expandUnitdata p0' p1 p2 size out i = .ok data := by
  unfold compressUnitdata
  by_cases hs : data.length < 100 ∨ p0 &&& 2 = 0
  · rw [if_pos hs]
    exact ⟨0, data, rfl, by omega, fun _ => rfl, fun h => (by cases h), fun _ _ => rfl⟩
  · rw [if_neg hs]
    obtain ⟨f, g, r, e1, e2, e3, e4, e5⟩ := v42_packet h1 h1' h2 h2' data
    rw [e1, bind_ok, e2, bind_ok, if_neg (by omega)]
    by_cases hl : data.length ≤ g.out.length
    · rw [if_pos hl]
      exact ⟨0, data, rfl, by omega, fun _ => rfl, fun h => (by cases h), fun _ _ => rfl⟩
    · rw [if_neg hl]
      refine ⟨1, g.out, rfl, by omega, fun h => (by cases h), fun _ => by omega, fun size hsz => ?_⟩
      unfold expandUnitdata
      rw [if_neg (by omega), if_neg hp, e4, bind_ok]
      dsimp only
      rw [e5, if_neg (by omega)]

/-- What became of a packet: the index and the size. -/
def packed : VRes (Nat × List UInt8) → Nat × Nat
  | .ok (i, o) => (i, o.length)
  | _ => (2, 0)

/-- A packet of 100 equal octets is compressed to 28 octets. -/
example : packed (compressUnitdata 3 2048 20 (List.replicate 100 65)) = (1, 28) := by decide +kernel

/-! ## C127 -/

/-- Undefined behaviour: an access outside an array, an undefined shift or an endless loop. -/
def Undefined {α : Type} (r : VRes α) : Prop := ∃ f, r = .ub f

/-- **C127** (full).  Whatever octets are received, expanding them is memory safe and ends, for all parameters that
`v42bis_init` accepts (/repo/src/sndcp/v42bis.c:723-726). -/
def C127Statement : Prop :=
  ∀ p1 p2, 512 ≤ p1 → p1 ≤ 65535 → 6 ≤ p2 → p2 ≤ 250 → ∀ data, ¬ Undefined ((Vs.init p1 p2).decompress data)

/-- Compressed mode, the width raised from 9 to 13 bits, then codeword 4096. -/
def wideCode : List UInt8 := [0, 0, 2, 4, 16, 128, 0, 0, 64]

/-- How an expansion ends. -/
def outcome : VRes Vs → Option VFault
  | .ub f => some f
  | _ => none

theorem undefined_of_outcome {r : VRes Vs} {f : VFault} (h : outcome r = some f) : Undefined r := by
  cases r with
  | ub g => exact ⟨g, rfl⟩
  | ok a => cases h
  | fail => cases h

/-- **C127 is violated** with the default parameters: the width of codewords is checked against an eighth of the size of the
dictionary instead of its logarithm, so a codeword may be any number up to 65535, and there are 4096 entries. -/
theorem c127_violated : ¬ C127Statement := by
  intro h
  exact h 2048 20 (by decide) (by decide) (by decide) (by decide) wideCode (undefined_of_outcome (f := .bounds) (by decide +kernel))

/-- **C127, proved part**: with a dictionary of at most 4096 entries the octets are expanded or refused, unless some of the
octets before have led to a state with codewords of more than 12 bits.  Missing: what happens from there, and larger
dictionaries. -/
theorem c127_partial (p1 p2 : Nat) (h1 : 512 ≤ p1) (h1' : p1 ≤ 4096) (h2 : 6 ≤ p2) (h2' : p2 ≤ 250) (data : List UInt8)
    (hw : ∀ pre s, pre <+: data → (Vs.init p1 p2).decompress pre = .ok s → s.c2 ≤ 12) :
    (∃ s, (Vs.init p1 p2).decompress data = .ok s) ∨ (Vs.init p1 p2).decompress data = .fail := by
  have S : Safe (Vs.init p1 p2) :=
    safe_initDict (s := ⟨p1, p2, 1024, true, 0, 0, 0, 0, 0, 0, Dict.init, [], 0, 0, 0, 0, [], [], 0, false⟩) h1 h1' h2 h2'
  rcases dec_safe data.length (2 * data.length) _ data S (Nat.le_refl _) (by omega) with h | h | ⟨c, l', r, e, hd, hr⟩
  · exact .inl h
  · exact .inr h
  · have := hw c r ⟨l', e.symm⟩ (decompress_of hd)
    omega

/-- The width of the codewords in the end. -/
def widthOf : VRes Vs → Nat
  | .ok s => s.c2
  | _ => 0

/-- The hypothesis of `c127_partial` is met by received data that switches to compressed mode, raises the width to 10 bits and
sends codeword 68; the expansion ends well. -/
example : (∀ pre s, pre <+: [0, 0, 2, 136, 0] → (Vs.init 2048 20).decompress pre = .ok s → s.c2 ≤ 12) ∧
    widthOf ((Vs.init 2048 20).decompress [0, 0, 2, 136, 0]) = 10 := by
  refine ⟨fun pre s hp hs => ?_, by decide +kernel⟩
  have h : ∀ n : Fin 6, widthOf ((Vs.init 2048 20).decompress (([0, 0, 2, 136, 0] : List UInt8).take n)) ≤ 12 := by decide +kernel
  have hl := hp.length_le
  simp only [List.length_cons, List.length_nil] at hl
  have := h ⟨pre.length, by omega⟩
  rw [← List.prefix_iff_eq_take.mp hp, hs] at this
  exact this

/-! ## C128 -/

/-- **C128** (full).  A packet that the peer compressed fits into the buffer that is set aside for its expansion. -/
def C128Statement : Prop :=
  ∀ p1 p2, 512 ≤ p1 → p1 ≤ 4096 → 6 ≤ p2 → p2 ≤ 250 → ∀ data i out, compressUnitdata 3 p1 p2 data = .ok (i, out) →
    expandUnitdata 3 p1 p2 (expandSize out.length) out i = .ok data

/-- **C128, proved part**: it is expanded exactly if it is at most 64 octets longer than ten times the compressed packet,
and otherwise written beyond the end of the buffer.  Missing: the packets that are longer. -/
theorem c128_partial (p1 p2 : Nat) (h1 : 512 ≤ p1) (h1' : p1 ≤ 4096) (h2 : 6 ≤ p2) (h2' : p2 ≤ 250) (data : List UInt8) (i : Nat)
    (out : List UInt8) (hc : compressUnitdata 3 p1 p2 data = .ok (i, out)) :
    expandUnitdata 3 p1 p2 (expandSize out.length) out i =
      if data.length ≤ 10 * out.length + 64 then .ok data else .ub .bounds := by
  obtain ⟨i', out', e, -, h0, -, hx⟩ := c126 3 3 p1 p2 h1 h1' h2 h2' (by decide) data
  rw [hc] at e
  cases e
  have hs : expandSize out.length = 10 * out.length + 64 := by unfold expandSize; omega
  rw [hs]
  split
  · exact hx _ (by assumption)
  · rename_i hgt
    by_cases hi : i = 0
    · rw [h0 hi] at hgt
      omega
    · have := hx data.length (Nat.le_refl _)
      unfold expandUnitdata at this ⊢
      rw [if_neg hi, if_neg (by decide)] at this ⊢
      obtain ⟨s, e1, e2⟩ := bind_eq_ok this
      rw [e1, bind_ok]
      dsimp only at e2 ⊢
      split at e2
      · cases e2
      · injection e2 with e2
        rw [e2, if_pos (by omega)]

/-- 800 equal octets are compressed to 70 octets. -/
theorem long_run_packed : packed (compressUnitdata 3 512 250 (List.replicate 800 65)) = (1, 70) := by decide +kernel

/-- **C128 is violated**: 800 equal octets are compressed to 70 octets, and expanded into a buffer of 764. -/
theorem c128_violated : ¬ C128Statement := by
  intro h
  obtain ⟨i, out, e, -⟩ := c126 3 3 512 250 (by decide) (by decide) (by decide) (by decide) (by decide) (List.replicate 800 65)
  have hl : out.length = 70 := by
    have := long_run_packed
    rw [e] at this
    exact (Prod.mk.inj this).2
  have h1 := h 512 250 (by decide) (by decide) (by decide) (by decide) _ i out e
  rw [c128_partial 512 250 (by decide) (by decide) (by decide) (by decide) _ i out e, List.length_replicate, hl,
    if_neg (by decide)] at h1
  cases h1

/-- A packet of 100 octets that is expanded. -/
example : packed (compressUnitdata 3 512 250 (List.replicate 100 65)) = (1, 28) ∧ 100 ≤ 10 * 28 + 64 := by decide +kernel

end Verif.Props
