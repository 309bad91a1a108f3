import Verif.Props.CsnConfine
import Verif.Csn1.Si13Lemmas

/-!
# C101, C102: system information type 13
-/
namespace Verif.Props

open Csn1 Spec

/-- Size of `SI13_RestOctets_t`. -/
abbrev si13Size : Nat := 84

/-- **C101**, full statement.  No system information type 13 makes the process abort or write outside the
structure, whatever was received before. -/
def C101Statement : Prop := ∀ (v : List Bool) (c : Si13Ctx) (u : Fault), handleSi13 (.object si13Size) v c ≠ .ub u

/-- Rest octets announcing a PBCCH on ARFCN 100: PSI1_REPEAT_PERIOD, Pb, TSC, TN, then ARFCN; no mobile
allocation. -/
def c101_block : List Bool :=
  bitsOf [0x80, 0x40, 0x00, 0x46, 0x4b, 0x2b, 0x2b, 0x2b, 0x2b, 0x2b, 0x2b, 0x2b, 0x2b, 0x2b, 0x2b, 0x2b,
    0x2b, 0x2b, 0x2b, 0x2b]

/-- Did the handler abort? -/
def aborts : CRes Si13Ctx → Bool
  | .ub .assertFail => true
  | _ => false

/-- **C101 is violated**: the first system information type 13 received aborts the process when it
announces a PBCCH, because the octet taken for T3192 then holds the ARFCN. -/
theorem c101_violated : ¬ C101Statement := by
  intro h
  have : aborts (handleSi13 (.object si13Size) c101_block ⟨fun _ => 0, 0, 0⟩) = true := by decide +kernel
  cases hr : handleSi13 (.object si13Size) c101_block ⟨fun _ => 0, 0, 0⟩ with
  | ub u => exact h _ _ u hr
  | ok _ => rw [hr] at this; cases this
  | fail _ => rw [hr] at this; cases this

/-- **C101** (partial): no abort when the rest octets, if present, announce no PBCCH, and, if absent, the
stored T3192 is one that fits its field. -/
theorem c101_partial (v : List Bool) (c : Si13Ctx) (habs : bitAt v 0 = 0 → c.ro 38 % 256 ≤ 7)
    (hun : ∀ t, decodeRest (.object si13Size) t_SI13_RestOctets v 20 c.ro = .ok t → bitAt v 0 = 1 → t.byte 31 = 0) :
    ∀ u, handleSi13 (.object si13Size) v c ≠ .ub u := by
  intro u hu
  unfold handleSi13 at hu
  cases hd : decodeRest (.object si13Size) t_SI13_RestOctets v 20 c.ro with
  | ub u => exact (c99_si13 v c.ro 20 (by omega)).1 u hd
  | fail e => rw [hd] at hu; cases hu
  | ok t =>
    rw [hd] at hu
    dsimp only at hu
    have h7 : t.byte 38 ≤ 7 := by
      rcases si13_split hd with ⟨h0, hm⟩ | ⟨h1, s, hs, -⟩
      · have := habs h0
        unfold CSt.byte
        rwa [hm 38 (by omega)]
      · obtain ⟨b31, hb⟩ := si13Tail_post hs
        rw [hun t hd h1] at b31
        rw [(hb b31.symm).2]
        have := bitsVal_lt v 3 (s.rd + 20)
        omega
    rw [if_neg (by omega)] at hu
    cases hu

/-- The context after some accepted system information type 13, or the zeroed one of a new process. -/
def Si13Kept (c : Si13Ctx) : Prop :=
  c.ro = (fun _ => 0) ∨ ∃ v c0, handleSi13 (.object si13Size) v c0 = .ok c

/-- What is kept of an accepted message. -/
theorem kept_of_ok {v : List Bool} {c c' : Si13Ctx} (h : handleSi13 (.object si13Size) v c = .ok c') :
    c'.ro 38 % 256 ≤ 7 ∧ c'.t3168 = (c'.ro 37 % 256 + 1) * 500 ∧ c'.t3192 = t3192Tbl.getD (c'.ro 38 % 256) 0 := by
  unfold handleSi13 at h
  split at h
  · cases h
  · cases h
  · split at h
    · cases h
    · cases h
      rename_i hle
      exact ⟨by unfold CSt.byte at hle; dsimp only; omega, rfl, rfl⟩

theorem Si13Kept.small {c : Si13Ctx} (h : Si13Kept c) : c.ro 38 % 256 ≤ 7 := by
  rcases h with h | ⟨v, c0, h⟩
  · rw [h]; decide
  · exact (kept_of_ok h).1

/-- **C101** (partial), in terms of the bits received: a system information type 13 that announces no
PBCCH never aborts the process, whatever was accepted before. -/
theorem c101_bits_partial (v : List Bool) (c : Si13Ctx) (hc : Si13Kept c) (hp : ¬ announcesPbcch v) :
    ∀ u, handleSi13 (.object si13Size) v c ≠ .ub u := by
  refine c101_partial v c (fun _ => hc.small) fun t ht h1 => ?_
  rcases si13_split ht with ⟨h, _⟩ | ⟨_, s, hs, hr⟩
  · omega
  · obtain ⟨b31, -⟩ := si13Tail_post hs
    rw [b31, hr]
    have h0 : bitAt v (pbcchBit v) ≠ 1 := fun h => hp ⟨h1, h⟩
    have := bitAt_le v (pbcchBit v)
    simp only [bitsVal, Nat.pow_zero, Nat.mul_one, Nat.add_zero]
    omega

/-- A message with a mobile allocation of two RFL numbers and a bitmap of 10 bits, and no PBCCH, is one
such; its cell options start at bit 60. -/
def si13WithMa : List Bool :=
  bitsOf [0x80, 0x83, 0xd6, 0x61, 0x35, 0x50, 0x0f, 0x86, 0xd5, 0x78, 0x00, 0x03, 0x2b, 0x2b, 0x2b, 0x2b,
    0x2b, 0x2b, 0x2b, 0x2b]

/-- **C102**, full statement.  After an accepted system information type 13 T3168 and T3192 are what its
cell options say (3GPP TS 44.060, table 12.24.2); a message that has no cell options leaves them as they
were. -/
def C102Statement : Prop := ∀ (v : List Bool) (c c' : Si13Ctx),
  (∃ v0 c0, handleSi13 (.object si13Size) v0 c0 = .ok c) → handleSi13 (.object si13Size) v c = .ok c' →
  match cellOptionsAt v with
  | some i => c'.t3168 = t3168Ms (bitsVal v (i + 2) 3) ∧ some c'.t3192 = t3192Ms (bitsVal v (i + 5) 3)
  | none => c'.t3168 = c.t3168 ∧ c'.t3192 = c.t3192

/-- **C102** (partial).  So it is for every message that announces no PBCCH: with and without a mobile
allocation, and for messages whose rest octets are absent. -/
theorem c102_partial (v : List Bool) (c c' : Si13Ctx)
    (hc : ∃ v0 c0, handleSi13 (.object si13Size) v0 c0 = .ok c) (hp : ¬ announcesPbcch v)
    (h : handleSi13 (.object si13Size) v c = .ok c') :
    match cellOptionsAt v with
    | some i => c'.t3168 = t3168Ms (bitsVal v (i + 2) 3) ∧ some c'.t3192 = t3192Ms (bitsVal v (i + 5) 3)
    | none => c'.t3168 = c.t3168 ∧ c'.t3192 = c.t3192 := by
  obtain ⟨v0, c0, hc⟩ := hc
  obtain ⟨-, k1, k2⟩ := kept_of_ok hc
  unfold handleSi13 at h
  cases hd : decodeRest (.object si13Size) t_SI13_RestOctets v 20 c.ro with
  | ub u => rw [hd] at h; cases h
  | fail e => rw [hd] at h; cases h
  | ok t =>
    rw [hd] at h
    dsimp only at h
    unfold cellOptionsAt
    rcases si13_split hd with ⟨h0, hm⟩ | ⟨h1, s, hs, hr⟩
    · rw [if_neg (by omega)]
      dsimp only
      have e37 : t.byte 37 = c.ro 37 % 256 := by unfold CSt.byte; rw [hm 37 (by omega)]
      have e38 : t.byte 38 = c.ro 38 % 256 := by unfold CSt.byte; rw [hm 38 (by omega)]
      rw [e37, e38] at h
      split at h
      · cases h
      · cases h
        exact ⟨k1.symm, k2.symm⟩
    · have h0 : bitAt v (pbcchBit v) = 0 := by
        have hne : bitAt v (pbcchBit v) ≠ 1 := fun h => hp ⟨h1, h⟩
        have := bitAt_le v (pbcchBit v)
        omega
      rw [if_pos ⟨h1, h0⟩]
      dsimp only
      obtain ⟨-, hb⟩ := si13Tail_post hs
      rw [hr] at hb
      obtain ⟨h37, h38⟩ := hb (by simp [bitsVal, h0])
      have hlt := bitsVal_lt v 3 (pbcchBit v + 20)
      rw [h37, h38, if_neg (by omega)] at h
      cases h
      rw [show pbcchBit v + 1 + 14 + 2 = pbcchBit v + 17 by omega, show pbcchBit v + 1 + 14 + 5 = pbcchBit v + 20 by omega]
      refine ⟨by unfold t3168Ms; dsimp only; omega, ?_⟩
      have hall : ∀ x : Fin 8, some (t3192Tbl.getD x.val 0) = t3192Ms x.val := by decide
      exact hall ⟨_, hlt⟩

/-- Rest octets with T3168 = 2 and T3192 = 5, no mobile allocation and no PBCCH. -/
def si13Plain : List Bool :=
  bitsOf [0x80, 0x00, 0x40, 0x15, 0x00, 0x00, 0x00, 0x2b, 0x2b, 0x2b, 0x2b, 0x2b,
    0x2b, 0x2b, 0x2b, 0x2b, 0x2b, 0x2b, 0x2b, 0x2b]

/-- They are accepted and give 1500 ms and 120 ms. -/
example : cellOptionsAt si13Plain = some 24 ∧ (match handleSi13 (.object si13Size) si13Plain ⟨fun _ => 255, 0, 0⟩ with
    | .ok c => c.t3168 == 1500 && c.t3192 == 120
    | _ => false) = true := by decide +kernel

/-- The message with a mobile allocation is accepted. -/
example : cellOptionsAt si13WithMa = some 60 ∧
    (match handleSi13 (.object si13Size) si13WithMa ⟨fun _ => 255, 0, 0⟩ with
    | .ok c => c.t3168 == 3000 && c.t3192 == 120
    | _ => false) = true := by decide +kernel

/-- Rest octets announcing a PBCCH on ARFCN 5. -/
def c102_block : List Bool :=
  bitsOf [0x80, 0x40, 0x00, 0x40, 0x5b, 0x2b, 0x2b, 0x2b, 0x2b, 0x2b, 0x2b, 0x2b, 0x2b, 0x2b, 0x2b, 0x2b,
    0x2b, 0x2b, 0x2b, 0x2b]

/-- The timers after a sequence of two messages. -/
def timersAfter (v1 v2 : List Bool) : Option (Nat × Nat × Nat × Nat) :=
  match handleSi13 (.object si13Size) v1 ⟨fun _ => 0, 0, 0⟩ with
  | .ok c => match handleSi13 (.object si13Size) v2 c with
    | .ok c' => some (c.t3168, c.t3192, c'.t3168, c'.t3192)
    | _ => none
  | _ => none

/-- **C102 is violated**: a message announcing a PBCCH on ARFCN 5 has no cell options, and sets T3192 from
the ARFCN. -/
theorem c102_violated : ¬ C102Statement := by
  intro h
  have hx : timersAfter si13WithMa c102_block = some (3000, 120, 1000, 120) := by decide +kernel
  have hn : cellOptionsAt c102_block = none := by decide +kernel
  unfold timersAfter at hx
  split at hx
  · rename_i c hc
    split at hx
    · rename_i c' hc'
      have := h c102_block c c' ⟨_, _, hc⟩ hc'
      rw [hn] at this
      dsimp only at this
      simp only [Option.some.injEq, Prod.mk.injEq] at hx
      omega
    · cases hx
  · cases hx

end Verif.Props
