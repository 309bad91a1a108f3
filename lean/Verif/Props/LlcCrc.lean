import Verif.Llc.PduLemmas

/-!
# C01, C02: the LLC frame check sequence
-/
namespace Verif.Props

open Verif.Llc Verif.Spec

/-- **C01.** For every octet string the computed FCS is the one number that TS 44.064 section 5.5
prescribes (specification `Spec.IsFcs`: polynomial division over GF(2)). -/
theorem c01_fcs_is_crc24 (data : Octets) (f : Nat) :
    IsFcs (frameBits data) f ↔ f = fcs data := by
  constructor
  · intro h
    have h2 := isFcs_fcs data
    have := bitsPoly_inj (fcsBits f) (fcsBits (fcs data)) (by simp [fcsBits]) (by rw [h.2, h2.2])
    exact fcsBits_inj h.1 h2.1 this
  · rintro rfl; exact isFcs_fcs data

/-- Non-vacuity: the FCS of a concrete frame (a unique number by C01). -/
example : IsFcs (frameBits [0x01, 0xc0, 0x05, 0x08, 0x01]) 11653082 :=
  (c01_fcs_is_crc24 _ _).2 (by decide +kernel)

/-- Specification for C02: the bits under the protection of the FCS in a received frame `w` - all
octets before the FCS field, or only the first seven in unprotected mode - followed by the FCS field
itself. -/
def protectedBits (prot : Bool) (w : Octets) : List Bool :=
  let body := w.take (w.length - 3)
  frameBits ((if prot then body else body.take 7) ++ w.drop (w.length - 3))

theorem join_lt (x y z : UInt8) :
    x.toNat ||| (y.toNat <<< 8) ||| (z.toNat <<< 16) < 2 ^ 24 := by
  have hx := x.toNat_lt; have hy := y.toNat_lt; have hz := z.toNat_lt
  refine Nat.or_lt_two_pow (Nat.or_lt_two_pow ?_ ?_) ?_
  · omega
  · rw [Nat.shiftLeft_eq]; omega
  · rw [Nat.shiftLeft_eq]; omega

theorem fcsBits_join (x y z : UInt8) :
    fcsBits (x.toNat ||| (y.toNat <<< 8) ||| (z.toNat <<< 16)) = frameBits [x, y, z] := by
  have hx := x.toNat_lt; have hy := y.toNat_lt; have hz := z.toNat_lt
  have hb : ∀ i j : Nat, ∀ u : UInt8, 8 ≤ i → u.toNat.testBit i = false := by
    intro i j u hi
    apply Nat.testBit_lt_two_pow
    exact Nat.lt_of_lt_of_le u.toNat_lt (Nat.pow_le_pow_right (n := 2) (by omega) hi)
  apply List.ext_getElem
  · simp [fcsBits, frameBits, octetBits]
  · intro i h1 h2
    have hi : i < 24 := by simpa [fcsBits] using h1
    simp only [fcsBits, List.getElem_map, List.getElem_range, Nat.testBit_or, Nat.testBit_shiftLeft]
    simp only [frameBits, List.flatMap_cons, List.flatMap_nil, List.append_nil]
    by_cases h8 : i < 8
    · rw [List.getElem_append_left (by simpa [octetBits] using h8)]
      simp [octetBits, show ¬ 8 ≤ i by omega, show ¬ 16 ≤ i by omega]
    · rw [List.getElem_append_right (by simp [octetBits]; omega)]
      by_cases h16 : i < 16
      · rw [List.getElem_append_left (by simp [octetBits]; omega)]
        simp [octetBits, show 8 ≤ i by omega, show ¬ 16 ≤ i by omega, hb i 0 x (by omega)]
      · rw [List.getElem_append_right (by simp [octetBits]; omega)]
        simp [octetBits, show 8 ≤ i by omega, show 16 ≤ i by omega, hb i 0 x (by omega),
          hb (i - 8) 0 y (by omega), Nat.sub_sub]

theorem decodeCtrl_fcs (d : Octets) (p q : Decoded) (dl : Nat) (h : decodeCtrl d p dl = .ok q) :
    q.fcs = p.fcs := by
  unfold decodeCtrl at h
  by_cases h1 : dl < 1
  · simp [h1] at h
  · simp only [h1, if_false] at h
    cases h0 : rd d 1 with
    | err e => simp [h0] at h
    | ub u => simp [h0] at h
    | ok c0 =>
      simp only [h0, Res.bind_ok] at h
      split at h
      · unfold decodeI at h
        by_cases h2 : dl < 3
        · simp [h2] at h
        · simp only [h2, if_false, h0, Res.bind_ok] at h
          cases e1 : rd d 2 with
          | err e => simp [e1] at h
          | ub u => simp [e1] at h
          | ok c1 =>
            cases e2 : rd d 3 with
            | err e => simp [e1, e2] at h
            | ub u => simp [e1, e2] at h
            | ok c2 =>
              simp only [e1, e2, Res.bind_ok] at h
              split at h
              · injection h with h; rw [← h]
              · injection h with h; rw [← h]
              · injection h with h; rw [← h]
              · split at h
                · cases h
                · cases e3 : rd d 4 with
                  | err e => simp [e3] at h
                  | ub u => simp [e3] at h
                  | ok k =>
                    simp only [e3, Res.bind_ok] at h
                    split at h
                    · cases h
                    · cases e4 : sackCopy d 5 ((k &&& 0x1f) + 1) with
                      | err e => simp [e4] at h
                      | ub u => simp [e4] at h
                      | ok r =>
                        simp only [e4, Res.bind_ok] at h
                        injection h with h; rw [← h]
      · split at h
        · unfold decodeS at h
          by_cases h2 : dl < 2
          · simp [h2] at h
          · simp only [h2, if_false, h0, Res.bind_ok] at h
            cases e1 : rd d 2 with
            | err e => simp [e1] at h
            | ub u => simp [e1] at h
            | ok c1 =>
              simp only [e1, Res.bind_ok] at h
              split at h
              · injection h with h; rw [← h]
              · injection h with h; rw [← h]
              · injection h with h; rw [← h]
              · split at h
                · cases h
                · cases e4 : sackCopy d 3 ((dl - 2) % 256) with
                  | err e => simp [e4] at h
                  | ub u => simp [e4] at h
                  | ok r =>
                    simp only [e4, Res.bind_ok] at h
                    injection h with h; rw [← h]
        · split at h
          · unfold decodeUI at h
            by_cases h2 : dl < 2
            · simp [h2] at h
            · simp only [h2, if_false, h0, Res.bind_ok] at h
              cases e1 : rd d 2 with
              | err e => simp [e1] at h
              | ub u => simp [e1] at h
              | ok c1 =>
                simp only [e1, Res.bind_ok] at h
                split at h
                · split at h
                  · cases h
                  · cases e4 : rdN d (3 + szSub (dl - 2) 4) 4 with
                    | err e => simp [e4] at h
                    | ub u => simp [e4] at h
                    | ok r =>
                      simp only [e4, Res.bind_ok] at h
                      injection h with h; rw [← h]
                · injection h with h; rw [← h]
          · unfold decodeU at h
            simp only [h1, if_false, h0, Res.bind_ok] at h
            split at h <;> first | (injection h with h; rw [← h]) | cases h

theorem decode_fcs_field (w : Octets) (d : Decoded) (h : decode w = .ok d) :
    3 ≤ w.length ∧ d.fcs < 2 ^ 24 ∧ fcsBits d.fcs = frameBits (w.drop (w.length - 3)) := by
  by_cases hl : w.length < 3
  · unfold decode at h; simp [hl] at h
  refine ⟨by omega, ?_⟩
  obtain ⟨x, y, z, hxyz⟩ : ∃ x y z, w.drop (w.length - 3) = [x, y, z] := by
    have : (w.drop (w.length - 3)).length = 3 := by simp; omega
    match hw : w.drop (w.length - 3), this with
    | [x, y, z], _ => exact ⟨x, y, z, rfl⟩
  have e0 : rd w (w.length - 3) = .ok x.toNat := by
    have := congrArg (fun l => l[0]?) hxyz
    simp only [List.getElem?_drop] at this
    simp [rd, show w.length - 3 + 0 = w.length - 3 by omega] at this ⊢; rw [this]
  have e1 : rd w (w.length - 2) = .ok y.toNat := by
    have := congrArg (fun l => l[1]?) hxyz
    simp only [List.getElem?_drop, show w.length - 3 + 1 = w.length - 2 by omega] at this
    simp [rd] at this ⊢; rw [this]
  have e2 : rd w (w.length - 1) = .ok z.toNat := by
    have := congrArg (fun l => l[2]?) hxyz
    simp only [List.getElem?_drop, show w.length - 3 + 2 = w.length - 1 by omega] at this
    simp [rd] at this ⊢; rw [this]
  have hf : d.fcs = x.toNat ||| (y.toNat <<< 8) ||| (z.toNat <<< 16) := by
    unfold decode at h
    simp only [hl, if_false, e0, e1, e2, Res.bind_ok] at h
    split at h
    · cases h
    · cases ha : rd w 0 with
      | err e => simp [ha] at h
      | ub u => simp [ha] at h
      | ok a =>
        simp only [ha, Res.bind_ok] at h
        split at h
        · cases h
        · split at h
          · cases h
          · rw [decodeCtrl_fcs _ _ _ _ h]
  rw [hf, hxyz]
  exact ⟨join_lt x y z, fcsBits_join x y z⟩

theorem fcsOk_iff (w : Octets) (d : Decoded) (h : decode w = .ok d)
    (hlen : w.length < 2 ^ 16 + 3) :
    fcsOk d w = true ↔ bitRun 0xffffff (protectedBits d.flags.protMode w) = zIter 24 0xffffff := by
  obtain ⟨h3, hlt, hbits⟩ := decode_fcs_field w d h
  have hc : rxCover d w =
      (if d.flags.protMode then w.take (w.length - 3) else (w.take (w.length - 3)).take 7) := by
    unfold rxCover unprotCover
    have : (w.length - 3) % 2 ^ 16 = w.length - 3 := Nat.mod_eq_of_lt (by omega)
    simp only [this]
    split
    · rfl
    · rw [List.take_take, Nat.min_comm]
  unfold fcsOk
  rw [beq_iff_eq, fcs_codeword _ hlt, hbits, ← frameBits_append, hc]
  rfl

/-- **C02.** A frame accepted by the receiver's FCS check that is corrupted in any way inside 24
consecutive protected bits (in order of transmission; in particular inside three consecutive octets)
is not accepted any more, provided the corruption does not alter the protected-mode indication, i.e.
the coverage itself.  `w`, `w'` are the frame before and after the corruption, `e`, `e'` the affected
bits.  The length limit is the receiver's 16-bit `crc_length`. -/
theorem c02_burst_detected (w w' : Octets) (d d' : Decoded) (pre e e' post : List Bool)
    (hd : decode w = .ok d) (hd' : decode w' = .ok d')
    (hlen : w.length < 2 ^ 16 + 3) (hlen' : w'.length = w.length)
    (hpm : d'.flags.protMode = d.flags.protMode)
    (hbits : protectedBits d.flags.protMode w = pre ++ e ++ post)
    (hbits' : protectedBits d.flags.protMode w' = pre ++ e' ++ post)
    (hburst : e'.length = e.length) (h24 : e.length ≤ 24) (hne : e' ≠ e)
    (hok : fcsOk d w = true) : fcsOk d' w' = false := by
  by_contra hcon
  have hok' : fcsOk d' w' = true := by simpa using hcon
  rw [fcsOk_iff w d hd hlen, hbits] at hok
  rw [fcsOk_iff w' d' hd' (by omega), hpm, hbits', ← hok] at hok'
  exact hne (burst_detected (by decide) pre e' e post hburst (by omega) hok')

/-- Non-vacuity of C02: a concrete protected UI frame, one octet of its payload corrupted. -/
example : ∃ d d', decode ([0x01, 0xc0, 0x01, 0xaa, 0xbb] ++
      fcsOctets (fcs [0x01, 0xc0, 0x01, 0xaa, 0xbb])) = .ok d ∧
    decode ([0x01, 0xc0, 0x01, 0xab, 0xbb] ++
      fcsOctets (fcs [0x01, 0xc0, 0x01, 0xaa, 0xbb])) = .ok d' ∧
    d'.flags.protMode = d.flags.protMode ∧
    fcsOk d ([0x01, 0xc0, 0x01, 0xaa, 0xbb] ++ fcsOctets (fcs [0x01, 0xc0, 0x01, 0xaa, 0xbb])) = true ∧
    fcsOk d' ([0x01, 0xc0, 0x01, 0xab, 0xbb] ++ fcsOctets (fcs [0x01, 0xc0, 0x01, 0xaa, 0xbb])) = false := by
  refine ⟨_, _, rfl, rfl, ?_⟩
  decide +kernel

end Verif.Props
