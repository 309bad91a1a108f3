import Verif.Sndcp.Slhc

/-!
# Header compression: octets, checksum and numbers
-/
namespace Verif.Slhc

@[simp] theorem sbind_ok {α β : Type} (a : α) (f : α → SRes β) : (SRes.ok a >>= f) = f a := rfl

theorem u8_ext {a b : UInt8} (h : a.toNat = b.toNat) : a = b := UInt8.toNat.inj h
theorem u16_ext {a b : UInt16} (h : a.toNat = b.toNat) : a = b := UInt16.toNat.inj h
theorem u32_ext {a b : UInt32} (h : a.toNat = b.toNat) : a = b := UInt32.toNat.inj h

theorem put16_get16 {l : List UInt8} {i : Nat} : put16 (get16 l i) = [l.getD i 0, l.getD (i + 1) 0] := by
  have h1 := (l.getD i 0).toNat_lt
  have h2 := (l.getD (i + 1) 0).toNat_lt
  unfold put16 get16
  rw [UInt16.toNat_ofNat']
  congr 1
  · apply u8_ext; rw [UInt8.toNat_ofNat']; omega
  · congr 1
    apply u8_ext; rw [UInt8.toNat_ofNat']; omega

theorem put32_get32 {l : List UInt8} {i : Nat} :
    put32 (get32 l i) = [l.getD i 0, l.getD (i + 1) 0, l.getD (i + 2) 0, l.getD (i + 3) 0] := by
  have h1 := (get16 l i).toNat_lt
  have h2 := (get16 l (i + 2)).toNat_lt
  have e1 : UInt16.ofNat ((get32 l i).toNat / 65536) = get16 l i := by
    apply u16_ext
    unfold get32
    rw [UInt16.toNat_ofNat', UInt32.toNat_ofNat']
    omega
  have e2 : UInt16.ofNat (get32 l i).toNat = get16 l (i + 2) := by
    apply u16_ext
    unfold get32
    rw [UInt16.toNat_ofNat', UInt32.toNat_ofNat']
    omega
  unfold put32
  rw [e1, e2, put16_get16, put16_get16]
  rfl

theorem get16_put16 (x : UInt16) (l : List UInt8) : get16 (put16 x ++ l) 0 = x := by
  have h := x.toNat_lt
  apply u16_ext
  show (UInt16.ofNat ((UInt8.ofNat (x.toNat / 256)).toNat * 256 + (UInt8.ofNat x.toNat).toNat)).toNat = _
  rw [UInt16.toNat_ofNat', UInt8.toNat_ofNat', UInt8.toNat_ofNat']
  omega

theorem list20 {l : List UInt8} (h : l.length = 20) : ∃ a0 a1 a2 a3 a4 a5 a6 a7 a8 a9 b0 b1 b2 b3 b4 b5 b6 b7 b8 b9,
    l = [a0, a1, a2, a3, a4, a5, a6, a7, a8, a9, b0, b1, b2, b3, b4, b5, b6, b7, b8, b9] := by
  match l, h with
  | [a0, a1, a2, a3, a4, a5, a6, a7, a8, a9, b0, b1, b2, b3, b4, b5, b6, b7, b8, b9], _ => exact ⟨_, _, _, _, _, _, _, _, _, _, _, _, _, _, _, _, _, _, _, _, rfl⟩

theorem split20 {l : List UInt8} (h : 20 ≤ l.length) : ∃ a0 a1 a2 a3 a4 a5 a6 a7 a8 a9 b0 b1 b2 b3 b4 b5 b6 b7 b8 b9 r,
    l = [a0, a1, a2, a3, a4, a5, a6, a7, a8, a9, b0, b1, b2, b3, b4, b5, b6, b7, b8, b9] ++ r := by
  obtain ⟨a0, a1, a2, a3, a4, a5, a6, a7, a8, a9, b0, b1, b2, b3, b4, b5, b6, b7, b8, b9, e⟩ := list20 (l := l.take 20) (by rw [List.length_take]; omega)
  exact ⟨a0, a1, a2, a3, a4, a5, a6, a7, a8, a9, b0, b1, b2, b3, b4, b5, b6, b7, b8, b9, l.drop 20, by rw [← e, List.take_append_drop]⟩

/-- A header that was read is written back. -/
theorem ip_bytes_read {l : List UInt8} (h : 20 ≤ l.length) : (Ip.read l).bytes = l.take 20 := by
  obtain ⟨a0, a1, a2, a3, a4, a5, a6, a7, a8, a9, b0, b1, b2, b3, b4, b5, b6, b7, b8, b9, r, rfl⟩ := split20 h
  unfold Ip.read Ip.bytes
  simp only [put16_get16, put32_get32]
  rfl

theorem tcp_bytes_read {l : List UInt8} (h : 20 ≤ l.length) : (Tcp.read l).bytes = l.take 20 := by
  obtain ⟨a0, a1, a2, a3, a4, a5, a6, a7, a8, a9, b0, b1, b2, b3, b4, b5, b6, b7, b8, b9, r, rfl⟩ := split20 h
  unfold Tcp.read Tcp.bytes
  simp only [put16_get16, put32_get32]
  rfl

theorem ip_bytes_length (h : Ip) : h.bytes.length = 20 := rfl
theorem tcp_bytes_length (h : Tcp) : h.bytes.length = 20 := rfl

/-! ## Checksum -/

/-- The sum of the words. -/
def wordSum : List UInt8 → Nat
  | a :: b :: l => a.toNat * 256 + b.toNat + wordSum l
  | _ => 0

/-- The representative of a number modulo 65535 that is not zero. -/
def norm (x : Nat) : Nat := if x % 65535 = 0 then 65535 else x % 65535

theorem csumAcc_eq : ∀ (l : List UInt8) (acc : Nat), 1 ≤ acc → acc ≤ 65535 → csumAcc acc l = norm (acc + wordSum l)
  | [], acc, h1, h2 => by unfold csumAcc wordSum norm; split <;> omega
  | [_], acc, h1, h2 => by unfold csumAcc wordSum norm; split <;> omega
  | a :: b :: l, acc, h1, h2 => by
    have ha := a.toNat_lt
    have hb := b.toNat_lt
    rw [csumAcc, wordSum]
    split
    · rename_i h
      rw [csumAcc_eq l _ (by omega) (by omega)]
      unfold norm
      have : ((acc + (a.toNat * 256 + b.toNat) + 1) % 65536 + wordSum l) % 65535 = (acc + (a.toNat * 256 + b.toNat + wordSum l)) % 65535 := by omega
      rw [this]
    · rw [csumAcc_eq l _ (by omega) (by omega)]
      congr 1
      omega

theorem csum_toNat (l : List UInt8) : (csum l).toNat = 65535 - norm (wordSum l) := by
  have hn : norm (wordSum l) ≤ 65535 := by unfold norm; split <;> omega
  unfold csum
  rw [csumAcc_eq l 65535 (by omega) (by omega)]
  have e : norm (65535 + wordSum l) = norm (wordSum l) := by
    unfold norm
    rw [Nat.add_mod_left]
  rw [e, UInt16.toNat_not, UInt16.toNat_ofNat']
  show 65536 - 1 - _ = _
  omega

/-- A checksum that is right is found right. -/
theorem csum_zero {l : List UInt8} (h : wordSum l % 65535 = 0) : csum l = 0 := by
  apply u16_ext
  rw [csum_toNat]
  unfold norm
  rw [if_pos h]
  rfl

theorem wordSum_append : ∀ (l k : List UInt8), l.length % 2 = 0 → wordSum (l ++ k) = wordSum l + wordSum k
  | [], k, _ => by simp [wordSum]
  | [_], k, h => by simp at h
  | a :: b :: l, k, h => by
    rw [List.cons_append, List.cons_append, wordSum, wordSum, wordSum_append l k (by simp at h; omega)]
    omega

/-- The checksum of a header without its checksum is the checksum. -/
theorem csum_hole {h1 h2 : List UInt8} (x : UInt16) (e : h1.length % 2 = 0) (hs : wordSum (h1 ++ put16 x ++ h2) % 65535 = 0)
    (hx : x.toNat ≠ 65535) : csum (h1 ++ put16 0 ++ h2) = x := by
  have hl := x.toNat_lt
  rw [List.append_assoc, wordSum_append _ _ e] at hs
  have hw : wordSum (put16 x ++ h2) = x.toNat + wordSum h2 := by
    show (UInt8.ofNat (x.toNat / 256)).toNat * 256 + (UInt8.ofNat x.toNat).toNat + wordSum h2 = _
    rw [UInt8.toNat_ofNat', UInt8.toNat_ofNat']
    omega
  have hw0 : wordSum (put16 0 ++ h2) = wordSum h2 := by
    show 0 * 256 + 0 + wordSum h2 = _
    omega
  apply u16_ext
  rw [csum_toNat, List.append_assoc, wordSum_append _ _ e, hw0]
  rw [hw] at hs
  unfold norm
  split <;> omega

/-! ## Numbers -/

theorem encode_length (x : UInt16) : (encode x).length ≤ 3 := by
  unfold encode
  split
  · exact Nat.le_refl 3
  · exact (by omega : 1 ≤ 3)

/-- These octets are at this position. -/
def At (b : List UInt8) (i : Nat) (l : List UInt8) : Prop := ∃ r, b.drop i = l ++ r

theorem At.left {b : List UInt8} {i : Nat} {l k : List UInt8} (h : At b i (l ++ k)) : At b i l := by
  obtain ⟨r, h⟩ := h
  exact ⟨k ++ r, by rw [h, List.append_assoc]⟩

theorem At.right {b : List UInt8} {i : Nat} {l k : List UInt8} (h : At b i (l ++ k)) : At b (i + l.length) k := by
  obtain ⟨r, h⟩ := h
  refine ⟨r, ?_⟩
  rw [← List.drop_drop, h, List.append_assoc, List.drop_left]

theorem getD_drop (b : List UInt8) (i j : Nat) : (b.drop i).getD j 0 = b.getD (i + j) 0 := by
  rw [List.getD_eq_getElem?_getD, List.getD_eq_getElem?_getD, List.getElem?_drop]

theorem get16_drop (b : List UInt8) (i j : Nat) : get16 (b.drop i) j = get16 b (i + j) := by
  unfold get16
  rw [getD_drop, getD_drop, Nat.add_assoc]

theorem At.length {b : List UInt8} {i : Nat} {l : List UInt8} (h : At b i l) (hl : l ≠ []) : i + l.length ≤ b.length := by
  obtain ⟨r, h⟩ := h
  have := congrArg List.length h
  rw [List.length_drop, List.length_append] at this
  have : 1 ≤ l.length := by cases l with
    | nil => exact absurd rfl hl
    | cons a l => simp
  omega

theorem decode_encode {b : List UInt8} {i : Nat} (x : UInt16) (h : At b i (encode x)) :
    decode b i = .ok (x, i + (encode x).length) := by
  have hx := x.toNat_lt
  have hne : encode x ≠ [] := by unfold encode; split <;> simp
  have hlen := h.length hne
  obtain ⟨r, h⟩ := h
  have g0 : b.getD i 0 = (encode x ++ r).getD 0 0 := by rw [← h, getD_drop]; rfl
  have g1 : get16 b (i + 1) = get16 ((encode x ++ r).drop 1) 0 := by rw [← h, get16_drop, get16_drop]
  unfold decode
  unfold encode at hlen g0 g1 ⊢
  split at hlen
  · rename_i hc
    rw [if_pos hc] at g0 g1 ⊢
    have hl3 : (0 :: put16 x).length = 3 := rfl
    rw [hl3] at hlen
    have g0' : b.getD i 0 = 0 := g0
    have g1' : get16 b (i + 1) = x := by rw [g1]; exact get16_put16 x r
    rw [if_neg (by omega), if_pos g0', if_neg (by omega), g1']
    rfl
  · rename_i hc
    rw [if_neg hc] at g0 ⊢
    have g0' : b.getD i 0 = UInt8.ofNat x.toNat := g0
    have hl1 : [UInt8.ofNat x.toNat].length = 1 := rfl
    rw [hl1] at hlen ⊢
    have hv : (UInt8.ofNat x.toNat).toNat = x.toNat := by rw [UInt8.toNat_ofNat']; omega
    have hx0 : x.toNat ≠ 0 := fun h0 => hc (.inr (u16_ext h0))
    rw [if_neg (by omega), g0', if_neg (by intro h0; apply hx0; rw [← hv, h0]; rfl), hv]
    congr 2
    apply u16_ext
    rw [UInt16.toNat_ofNat']
    omega

theorem decodeIf_ok {b : List UInt8} {i : Nat} (f : Bool) (x : UInt16) (h : At b i (if f then encode x else [])) :
    decodeIf f b i = .ok (if f then x else 0, i + (if f then encode x else []).length) := by
  unfold decodeIf
  cases f with
  | true => exact decode_encode x h
  | false => rfl

/-- A write within the buffer. -/
theorem write_ok {b : List UInt8} {i : Nat} {l : List UInt8} (h : i + l.length ≤ b.length) :
    write b i l = .ok (b.take i ++ l ++ b.drop (i + l.length)) := if_pos h

theorem write_mid {x y z l : List UInt8} (h : y.length = l.length) : write (x ++ y ++ z) x.length l = .ok (x ++ l ++ z) := by
  have h1 : (x ++ y ++ z).take x.length = x := by rw [List.append_assoc, List.take_left]
  have h2 : (x ++ y ++ z).drop (x.length + l.length) = z := by rw [← h, ← List.length_append, List.drop_left]
  rw [write_ok (by simp; omega), h1, h2]

end Verif.Slhc
