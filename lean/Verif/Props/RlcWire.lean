import Verif.Rlc.Wire
import Verif.Spec.RlcAir
import Verif.Props.DlLink
import Verif.Props.UlLink
/-!
# C171, C172: RLC data blocks in octets
-/
namespace Verif.Props
open Verif Verif.Rlc Verif.Spec

/-! ## C171: downlink -/

theorem rd_cons0 (a : UInt8) (l : Octets) : rd (a :: l) 0 = .ok a.toNat := rfl
theorem rd_cons1 (a b : UInt8) (l : Octets) : rd (a :: b :: l) 1 = .ok b.toNat := rfl
theorem rd_cons2 (a b c : UInt8) (l : Octets) : rd (a :: b :: c :: l) 2 = .ok c.toNat := rfl

theorem u8_toNat {n : Nat} (h : n < 256) : (UInt8.ofNat n).toNat = n := by
  rw [UInt8.toNat_ofNat']; exact Nat.mod_eq_of_lt h

/-- Three octets and the payload of a coding scheme. -/
theorem dlDataBlock_eq {cs n : Nat} (hcs : (cs = 1 ∧ n = 20) ∨ (cs = 2 ∧ n = 30) ∨ (cs = 3 ∧ n = 36) ∨ (cs = 4 ∧ n = 50))
    (a b c : UInt8) (l : Octets) (hl : n ≤ l.length) : dlDataBlock cs (a :: b :: c :: l) =
      .ok (.data (b.toNat / 2 % 32) (c.toNat / 2) ⟨c.toNat % 2 = 1, b.toNat % 2 = 1, l.take n⟩
        (if a.toNat / 8 % 2 = 1 then some (a.toNat / 16 % 4) else none)) := by
  have hi : ∃ i : DataInfo, dataInfoInit false cs false = .ok i ∧ i.n = 1 ∧ i.offs 0 = 24 ∧ i.len = n ∧ hdrType cs = 2 ∧ n ≤ 74 := by
    rcases hcs with ⟨rfl, rfl⟩ | ⟨rfl, rfl⟩ | ⟨rfl, rfl⟩ | ⟨rfl, rfl⟩ <;> exact ⟨_, rfl, rfl, rfl, rfl, rfl, by decide⟩
  obtain ⟨i, h1, h2, h3, h4, h5, h6⟩ := hi
  unfold dlDataBlock copyToAligned
  rw [if_pos h5, h1]
  simp only [Res.bind_ok, rd_cons0, rd_cons1, rd_cons2, h2, h3, h4]
  rw [if_pos (by decide), rdN_of_le (by simp only [List.length_cons]; omega)]
  simp only [Res.bind_ok, show 24 % 8 = 0 from rfl, show 24 / 8 = 3 from rfl, if_true, List.drop_succ_cons, List.drop_zero]
  unfold copyTo
  rw [if_pos (by rw [List.length_take, List.length_replicate]; omega)]
  simp only [Res.bind_ok, List.take_zero, List.nil_append]
  rw [List.take_append_of_le_length (by rw [List.length_take]; omega), List.take_take, Nat.min_self]

theorem getBySizeDl_air {p s : Nat} (h : AirSize p s) :
    ∃ cs, getBySizeDl (3 + p + s) = cs ∧ ((cs = 1 ∧ p = 20) ∨ (cs = 2 ∧ p = 30) ∨ (cs = 3 ∧ p = 36) ∨ (cs = 4 ∧ p = 50)) ∧
      cs ≠ csUnknown ∧ isGprs cs = true := by
  rcases h with ⟨rfl, rfl⟩ | ⟨rfl, rfl⟩ | ⟨rfl, rfl⟩ | ⟨rfl, rfl⟩ <;> exact ⟨_, rfl, by decide, by decide, by decide⟩

/-- **C171.** A downlink RLC data block received on a PDCH is taken for the TBF with its TFI, with the BSN, E, FBI and
payload it was sent with, whatever the USF, the power reduction and the spare bits, and polls exactly if S/P is set. -/
theorem c171 (fn : Nat) (h : DlHead) (payload spare : Octets) (ho : h.Ok) (hs : AirSize payload.length spare.length)
    (hf : fn % 104 ≠ 12) : pdchDataInd fn (dlAir h payload spare) =
      .ok (.data h.tfi h.bsn ⟨h.e, h.fbi, payload⟩ (if h.sp then some h.rrbp else none)) := by
  obtain ⟨h1, h2, h3, h4, h5⟩ := ho
  obtain ⟨usf, sp, rrbp, pr, tfi, fbi, bsn, e⟩ := h
  dsimp only at h1 h2 h3 h4 h5
  obtain ⟨cs, hc, hn, hu, hg⟩ := getBySizeDl_air hs
  have hsp := Bool.toNat_lt sp
  have hfb := Bool.toNat_lt fbi
  have he := Bool.toNat_lt e
  have hlen : (dlAir ⟨usf, sp, rrbp, pr, tfi, fbi, bsn, e⟩ payload spare).length = 3 + payload.length + spare.length := by
    simp [dlAir, DlHead.octets]; omega
  unfold pdchDataInd
  rw [if_neg (by omega)]
  simp only [hlen, hc, hg, if_true]
  rw [if_neg hu, if_neg hf]
  unfold gprsDlBlock dlAir DlHead.octets
  simp only [List.cons_append, List.nil_append, rd_cons0, Res.bind_ok, u8_toNat (show rrbp * 16 + sp.toNat * 8 + usf < 256 by omega)]
  rw [if_pos (by omega), dlDataBlock_eq hn _ _ _ _ (by rw [List.length_append]; omega), u8_toNat (by omega), u8_toNat (by omega),
    u8_toNat (by omega), List.take_append_of_le_length (Nat.le_refl _), List.take_length]
  have b1 : (pr * 64 + tfi * 2 + fbi.toNat) / 2 % 32 = tfi := by omega
  have b2 : (bsn * 2 + e.toNat) / 2 = bsn := by omega
  have b3 : (bsn * 2 + e.toNat) % 2 = e.toNat := by omega
  have b4 : (pr * 64 + tfi * 2 + fbi.toNat) % 2 = fbi.toNat := by omega
  have b5 : (rrbp * 16 + sp.toNat * 8 + usf) / 8 % 2 = sp.toNat := by omega
  have b6 : (rrbp * 16 + sp.toNat * 8 + usf) / 16 % 4 = rrbp := by omega
  rw [b1, b2, b3, b4, b5, b6]
  cases sp <;> cases fbi <;> cases e <;> rfl

/-- The sizes of received blocks that are GPRS blocks. -/
theorem gprs_sizes {n : Nat} (h : isGprs (getBySizeDl n) = true) : ∃ cs p s, getBySizeDl n = cs ∧ n = 3 + p + s ∧ AirSize p s ∧
    ((cs = 1 ∧ p = 20) ∨ (cs = 2 ∧ p = 30) ∨ (cs = 3 ∧ p = 36) ∨ (cs = 4 ∧ p = 50)) := by
  unfold getBySizeDl at h
  split at h
  all_goals first
    | exact absurd h (by decide)
    | skip
  · exact ⟨_, 20, 0, rfl, rfl, by unfold AirSize; decide, by decide⟩
  · exact ⟨_, 30, 1, rfl, rfl, by unfold AirSize; decide, by decide⟩
  · exact ⟨_, 36, 1, rfl, rfl, by unfold AirSize; decide, by decide⟩
  · exact ⟨_, 50, 1, rfl, rfl, by unfold AirSize; decide, by decide⟩

/-- The octets of a header. -/
theorem head_octets (a b c : UInt8) (ha : a.toNat / 64 = 0) : ∃ h : DlHead, h.Ok ∧ h.octets = [a, b, c] ∧
    b.toNat / 2 % 32 = h.tfi ∧ c.toNat / 2 = h.bsn ∧ decide (c.toNat % 2 = 1) = h.e ∧ decide (b.toNat % 2 = 1) = h.fbi ∧
    (if a.toNat / 8 % 2 = 1 then some (a.toNat / 16 % 4) else none) = if h.sp then some h.rrbp else none := by
  have la := a.toNat_lt
  have lb := b.toNat_lt
  have lc := c.toNat_lt
  refine ⟨⟨a.toNat % 8, decide (a.toNat / 8 % 2 = 1), a.toNat / 16 % 4, b.toNat / 64, b.toNat / 2 % 32, decide (b.toNat % 2 = 1),
    c.toNat / 2, decide (c.toNat % 2 = 1)⟩, ⟨by dsimp only; omega, by dsimp only; omega, by dsimp only; omega, by dsimp only; omega,
      by dsimp only; omega⟩, ?_, rfl, rfl, rfl, rfl, ?_⟩
  · have hb : ∀ n : Nat, (decide (n % 2 = 1)).toNat = n % 2 := fun n => by
      rcases Nat.mod_two_eq_zero_or_one n with h | h <;> rw [h] <;> rfl
    unfold DlHead.octets
    dsimp only
    rw [hb, hb, hb]
    refine List.cons_eq_cons.2 ⟨?_, List.cons_eq_cons.2 ⟨?_, List.cons_eq_cons.2 ⟨?_, rfl⟩⟩⟩
    · rw [show a.toNat / 16 % 4 * 16 + a.toNat / 8 % 2 * 8 + a.toNat % 8 = a.toNat by omega]; exact UInt8.ofNat_toNat
    · rw [show b.toNat / 64 * 64 + b.toNat / 2 % 32 * 2 + b.toNat % 2 = b.toNat by omega]; exact UInt8.ofNat_toNat
    · rw [show c.toNat / 2 * 2 + c.toNat % 2 = c.toNat by omega]; exact UInt8.ofNat_toNat
  · simp

/-- **C171, the converse**: no octets whatsoever make L1CTL-PDCH_DATA.ind fault, and what is taken for a data block is one. -/
theorem c171_only (fn : Nat) (d : Octets) : ∃ r, pdchDataInd fn d = .ok r ∧ ∀ tfi bsn b poll, r = .data tfi bsn b poll →
    ∃ h payload spare, h.Ok ∧ AirSize payload.length spare.length ∧ d = dlAir h payload spare ∧ tfi = h.tfi ∧ bsn = h.bsn ∧
      b = ⟨h.e, h.fbi, payload⟩ ∧ poll = if h.sp then some h.rrbp else none := by
  have no : ∀ r : PdchIn, (∀ t n b p, r ≠ .data t n b p) → ∃ r', (.ok r : Res PdchIn) = .ok r' ∧ ∀ tfi bsn b poll,
      r' = .data tfi bsn b poll → ∃ h payload spare, h.Ok ∧ AirSize payload.length spare.length ∧ d = dlAir h payload spare ∧
        tfi = h.tfi ∧ bsn = h.bsn ∧ b = ⟨h.e, h.fbi, payload⟩ ∧ poll = if h.sp then some h.rrbp else none :=
    fun r hr => ⟨r, rfl, fun t n b p e => absurd e (hr t n b p)⟩
  unfold pdchDataInd
  split
  · exact no _ (by intros; simp)
  · dsimp only
    split
    · exact no _ (by intros; simp)
    · rename_i hcs
      split
      · exact no _ (by intros; simp)
      · split
        · rename_i hg
          obtain ⟨cs, p, s, e1, e2, e3, e4⟩ := gprs_sizes hg
          rw [e1]
          match d, e2 with
          | a :: b :: c :: l, e2 =>
            simp only [List.length_cons] at e2
            unfold gprsDlBlock
            simp only [rd_cons0, Res.bind_ok]
            split
            · rename_i ha
              rw [dlDataBlock_eq e4 _ _ _ _ (by omega)]
              refine ⟨_, rfl, fun tfi bsn blk poll hr => ?_⟩
              obtain ⟨h, k1, k2, k3, k4, k5, k6, k7⟩ := head_octets a b c ha
              injection hr with r1 r2 r3 r4
              refine ⟨h, l.take p, l.drop p, k1, ?_, ?_, ?_, ?_, ?_, ?_⟩
              · rw [List.length_take, List.length_drop, Nat.min_eq_left (by omega), show l.length - p = s by omega]; exact e3
              · unfold dlAir; rw [k2, List.append_assoc, List.take_append_drop]; rfl
              · rw [← r1, k3]
              · rw [← r2, k4]
              · rw [← r3, k5, k6]
              · rw [← r4, k7]
            · split
              · exact no _ (by intros; simp)
              · have : 3 + p + s = l.length + 1 + 1 + 1 := e2.symm
                rcases e3 with ⟨rfl, rfl⟩ | ⟨rfl, rfl⟩ | ⟨rfl, rfl⟩ | ⟨rfl, rfl⟩ <;>
                  · rw [rdN_of_le (by simp only [List.length_cons]; omega)]
                    exact no _ (by intros; simp)
          | [], e2 => simp only [List.length_nil] at e2; omega
          | [_], e2 => simp only [List.length_cons, List.length_nil] at e2; rcases e3 with ⟨rfl, rfl⟩ | ⟨rfl, rfl⟩ | ⟨rfl, rfl⟩ | ⟨rfl, rfl⟩ <;> omega
          | [_, _], e2 => simp only [List.length_cons, List.length_nil] at e2; rcases e3 with ⟨rfl, rfl⟩ | ⟨rfl, rfl⟩ | ⟨rfl, rfl⟩ | ⟨rfl, rfl⟩ <;> omega
        · split
          · exact no _ (by intros; simp)
          · rename_i h1 h2
            exfalso
            revert hcs h1 h2
            unfold getBySizeDl
            split <;> decide

/-- A received block put into the receiver of the TBF with a TFI (rlcmac.c:820-829); others do not get there. -/
def rxAir (tfi fn : Nat) (s : DlRx) (d : Octets) : Res (DlRx × List Octets) :=
  match pdchDataInd fn d with
  | .ok (.data t n b _) => if t = tfi then s.rcv n b else .ok (s, [])
  | .ok _ => .ok (s, [])
  | .err e => .err e
  | .ub f => .ub f

/-- **C171, in a transfer**: a transfer over a lossy link (C150, C151) in which the blocks travel as octets, each with
any USF, polling, power reduction, frame number and spare bits, goes on as the one in which they travel as they are. -/
theorem c171_transfer {blk : Nat → Block} {s : DlLink} {bsn : Nat} {b : Block} {l : List (Nat × Block)}
    (hd : s.down = (bsn, b) :: l) (fn : Nat) (hf : fn % 104 ≠ 12) (h : DlHead) (spare : Octets) (ho : h.Ok)
    (hs : AirSize b.data.length spare.length) (hb : h.bsn = bsn ∧ h.e = b.e ∧ h.fbi = b.fbi) :
    s.step blk .downArrives = (do
      let r ← rxAir h.tfi fn s.ms (dlAir h b.data spare)
      .ok { s with ms := r.1, down := l, given := s.given ++ r.2 }) := by
  obtain ⟨h1, h2, h3⟩ := hb
  unfold rxAir
  rw [c171 fn h b.data spare ho hs hf, h1, h2, h3]
  simp only [DlLink.step, hd, if_true]

/-- Blocks for other TBFs do not get into it. -/
theorem c171_others (tfi fn : Nat) (s : DlRx) (h : DlHead) (payload spare : Octets) (ho : h.Ok)
    (hs : AirSize payload.length spare.length) (hf : fn % 104 ≠ 12) (ht : h.tfi ≠ tfi) :
    rxAir tfi fn s (dlAir h payload spare) = .ok (s, []) := by
  unfold rxAir
  rw [c171 fn h payload spare ho hs hf]
  simp only
  rw [if_neg ht]

/-- A CS-2 block that polls. -/
example : pdchDataInd 17 (dlAir ⟨5, true, 2, 1, 19, true, 100, false⟩ (List.replicate 30 7) [0x55]) =
    .ok (.data 19 100 ⟨false, true, List.replicate 30 7⟩ (some 2)) :=
  c171 17 _ _ _ ⟨by decide, by decide, by decide, by decide, by decide⟩ (by unfold AirSize; simp) (by decide)

end Verif.Props
