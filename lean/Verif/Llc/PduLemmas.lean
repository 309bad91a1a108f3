import Verif.Llc.Pdu
import Verif.Llc.CrcLemmas

/-!
# Lemmas about the LLC frame codec (proof machinery for C03-C06)
-/
namespace Verif.Llc

theorem fcs_join {f : Nat} (h : f < 2 ^ 24) :
    ((f &&& 0xff) ||| (((f >>> 8) &&& 0xff) <<< 8)) ||| (((f >>> 16) &&& 0xff) <<< 16) = f := by
  apply Nat.eq_of_testBit_eq
  intro i
  rw [Nat.testBit_or, Nat.testBit_or, Nat.testBit_shiftLeft, Nat.testBit_shiftLeft, Nat.testBit_and,
    Nat.testBit_and, Nat.testBit_and, Nat.testBit_shiftRight, Nat.testBit_shiftRight,
    show (0xff : Nat) = 2 ^ 8 - 1 by rfl]
  simp only [Nat.testBit_two_pow_sub_one]
  by_cases h8 : i < 8
  · simp [h8, show ¬ 8 ≤ i by omega, show ¬ 16 ≤ i by omega]
  by_cases h16 : i < 16
  · simp [h8, show 8 ≤ i by omega, show ¬ 16 ≤ i by omega, show i - 8 < 8 by omega,
      show 8 + (i - 8) = i by omega]
  by_cases h24 : i < 24
  · simp [h8, show 8 ≤ i by omega, show 16 ≤ i by omega, show ¬ i - 8 < 8 by omega,
      show i - 16 < 8 by omega, show 16 + (i - 16) = i by omega]
  · have h2 : (2 : Nat) ^ 24 ≤ 2 ^ i := Nat.pow_le_pow_right (by omega) (by omega)
    have : f.testBit i = false := Nat.testBit_lt_two_pow (Nat.lt_of_lt_of_le h h2)
    simp [h8, show ¬ i - 8 < 8 by omega, show ¬ i - 16 < 8 by omega, this]

theorem toNat_ofNat_and (x : Nat) : (UInt8.ofNat (x &&& 0xff)).toNat = x &&& 0xff := by
  have : x &&& 0xff < 256 := Nat.lt_of_le_of_lt Nat.and_le_right (by omega)
  rw [UInt8.toNat_ofNat']; omega

theorem rd_append_left {a b : Octets} {i : Nat} (h : i < a.length) : rd (a ++ b) i = rd a i := by
  unfold rd; rw [List.getElem?_append_left h]

theorem rd_append_right {a b : Octets} {i : Nat} (h : a.length ≤ i) :
    rd (a ++ b) i = rd b (i - a.length) := by
  unfold rd; rw [List.getElem?_append_right h]

/-- Decoding a non-empty body followed by an FCS field. -/
theorem decode_append (a : UInt8) (tl : Octets) {f : Nat} (hf : f < 2 ^ 24) :
    decode ((a :: tl) ++ fcsOctets f) =
      if a.toNat &&& 0x80 != 0 then .err .einval
      else if sapiReserved (a.toNat &&& 0x0f) then .err .einval
      else decodeCtrl ((a :: tl) ++ fcsOctets f)
        { fcs := f, sapi := a.toNat &&& 0x0f,
          flags := { protMode := true, cmdRsp := a.toNat &&& 0x40 != 0 } } tl.length := by
  have hl : ((a :: tl) ++ fcsOctets f).length = tl.length + 4 := by simp [fcsOctets]
  have h0 : rd ((a :: tl) ++ fcsOctets f) (tl.length + 4 - 3) = .ok (f &&& 0xff) := by
    rw [rd_append_right (by simp), ← toNat_ofNat_and f]
    simp [rd, fcsOctets]
  have h1 : rd ((a :: tl) ++ fcsOctets f) (tl.length + 4 - 2) = .ok ((f >>> 8) &&& 0xff) := by
    rw [rd_append_right (by simp), ← toNat_ofNat_and (f >>> 8)]
    have : tl.length + 4 - 2 - (a :: tl).length = 1 := by simp
    rw [this]; simp [rd, fcsOctets]
  have h2 : rd ((a :: tl) ++ fcsOctets f) (tl.length + 4 - 1) = .ok ((f >>> 16) &&& 0xff) := by
    rw [rd_append_right (by simp), ← toNat_ofNat_and (f >>> 16)]
    have : tl.length + 4 - 1 - (a :: tl).length = 2 := by simp
    rw [this]; simp [rd, fcsOctets]
  have ha : rd ((a :: tl) ++ fcsOctets f) 0 = .ok a.toNat := by simp [rd]
  unfold decode
  simp only [hl]
  rw [if_neg (by omega)]
  rw [h0, h1, h2]
  simp only [Res.bind_ok]
  rw [if_neg (by omega), ha]
  simp only [Res.bind_ok, fcs_join hf]
  simp

theorem addr_facts : ∀ s < 16, ∀ c : Bool,
    let a := (UInt8.ofNat ((s &&& 0x0f) ||| bit c 6)).toNat
    (a &&& 0x80) = 0 ∧ (a &&& 0x0f) = s ∧ (a &&& 0x40 != 0) = c := by decide +kernel

/-- Decoding what the encoder produced, down to the control field. -/
theorem decode_encoded (p : Pdu) (hs : p.sapi < 16) (hr : sapiReserved p.sapi = false)
    (tl : Octets) {f : Nat} (hf : f < 2 ^ 24) :
    decode ((encAddr p :: tl) ++ fcsOctets f) =
      decodeCtrl ((encAddr p :: tl) ++ fcsOctets f)
        { fcs := f, sapi := p.sapi, flags := { protMode := true, cmdRsp := p.flags.cmdRsp } }
        tl.length := by
  obtain ⟨h1, h2, h3⟩ := addr_facts p.sapi hs p.flags.cmdRsp
  rw [decode_append _ _ hf]
  unfold encAddr
  rw [h1, h2, h3, hr]
  simp

theorem ui_ctrl_facts : ∀ s < 512, ∀ e pm : Bool,
    let c0 := (UInt8.ofNat ((0xc0 ||| bit false 4) ||| ((s >>> 6) &&& 0x07))).toNat
    let c1 := (UInt8.ofNat ((((s &&& 0x3f) <<< 2) ||| bit e 1) ||| bit pm 0)).toNat
    c0 &&& 0x80 ≠ 0 ∧ c0 &&& 0xc0 ≠ 0x80 ∧ c0 &&& 0xe0 = 0xc0 ∧ c0 &&& 0x10 = 0 ∧
    ((c0 &&& 0x7) <<< 6) ||| (c1 >>> 2) = s ∧ (c1 &&& 0x02 != 0) = e ∧ (c1 &&& 0x01 != 0) = pm := by
  decide +kernel

theorem encCover_append (pm : Bool) (body : Octets) (f : Nat) (p : Decoded)
    (hp : p.flags.protMode = pm) (hlen : pm = true → body.length < 2 ^ 16) (hb : body.length < 2 ^ 16 ∨ 7 ≤ body.length % 2 ^ 16) :
    rxCover p (body ++ fcsOctets f) = encCover pm body := by
  have h3 : (fcsOctets f).length = 3 := rfl
  unfold rxCover encCover
  rw [hp]
  simp only [List.length_append, h3, Nat.add_sub_cancel]
  cases pm with
  | true =>
    have := hlen rfl
    rw [Nat.mod_eq_of_lt this]
    simp
  | false =>
    simp only [Bool.false_eq_true, if_false, unprotCover]
    rcases hb with hb | hb
    · rw [Nat.mod_eq_of_lt hb, List.take_append_of_le_length (by omega)]
    · have : 7 ≤ body.length := by have := Nat.mod_le body.length (2 ^ 16); omega
      rw [Nat.min_eq_right hb, Nat.min_eq_right this, List.take_append_of_le_length this]

theorem rd_cons_zero (a : UInt8) (l : Octets) : rd (a :: l) 0 = .ok a.toNat := by simp [rd]

theorem rd_cons_succ (a : UInt8) (l : Octets) (i : Nat) : rd (a :: l) (i + 1) = rd l i := by
  simp [rd]

theorem u_ctrl_facts : ∀ pf : Bool, ∀ c < 16,
    let c0 := (UInt8.ofNat ((0xe0 ||| bit pf 4) ||| c)).toNat
    c0 &&& 0x80 ≠ 0 ∧ c0 &&& 0xc0 ≠ 0x80 ∧ c0 &&& 0xe0 ≠ 0xc0 ∧ (c0 &&& 0x10 != 0) = pf ∧
    c0 &&& 0x0f = c := by decide +kernel

theorem i_ctrl_facts_tx : ∀ s < 512, ∀ a : Bool, ∀ r3 < 8,
    let c0 := (UInt8.ofNat (bit a 6 ||| ((s >>> 4) &&& 0x1f))).toNat
    let c1 := (UInt8.ofNat (((s &&& 0x0f) <<< 4) ||| r3)).toNat
    c0 &&& 0x80 = 0 ∧ (c0 &&& 0x40 != 0) = a ∧ ((c0 &&& 0x1f) <<< 4) ||| (c1 >>> 4) = s ∧
    c1 &&& 0x7 = r3 := by decide +kernel

theorem i_ctrl_facts_rx : ∀ r < 512, ∀ k < 4,
    let c2 := (UInt8.ofNat (((r &&& 0x3f) <<< 2) ||| k)).toNat
    (((r >>> 6) &&& 0x07) <<< 6) ||| (c2 >>> 2) = r ∧ c2 &&& 0x03 = k ∧ (r >>> 6) &&& 0x07 < 8 := by
  decide +kernel

theorem s_ctrl_facts : ∀ r < 512, ∀ k < 4,
    let c0 := (UInt8.ofNat (0x80 ||| ((r >>> 6) &&& 0x07))).toNat
    let c1 := (UInt8.ofNat ((bit false 5 ||| ((r &&& 0x3f) <<< 2)) ||| k)).toNat
    c0 &&& 0x80 ≠ 0 ∧ c0 &&& 0xc0 = 0x80 ∧ (c0 &&& 0x20 != 0) = false ∧
    ((c0 &&& 0x7) <<< 6) ||| (c1 >>> 2) = r ∧ c1 &&& 0x03 = k := by
  decide +kernel

end Verif.Llc
