import Verif.Csn1.LayEnc
import Verif.Spec.CsnMsg

/-!
# Whole messages: padding, encoding and decoding
-/
namespace Verif.Csn1

open Spec

/-! ## Padding -/

theorem put_wi_le (len x n : Nat) (s : ESt) : s.wi ≤ (s.put len x n).wi := by
  unfold ESt.put; dsimp only; split <;> omega

theorem put_low (len x n : Nat) (s : ESt) {i : Nat} (h : i < s.wi) : (s.put len x n).vec i = s.vec i := by
  unfold ESt.put; dsimp only
  rw [if_neg (by omega)]

theorem padE_low (len : Nat) : ∀ (fuel : Nat) (s : ESt), 0 ≤ s.rem → s.rem.toNat ≤ fuel →
    (padE len fuel s).rem = 0 ∧ ∀ i, i < s.wi → (padE len fuel s).vec i = s.vec i := by
  intro fuel
  induction fuel with
  | zero =>
    intro s h0 hf
    exact ⟨by unfold padE; omega, fun i _ => by unfold padE; rfl⟩
  | succ f ih =>
    intro s h0 hf
    unfold padE
    by_cases hz : s.rem ≤ 0
    · rw [if_pos hz]; exact ⟨by omega, fun _ _ => rfl⟩
    · rw [if_neg hz]
      dsimp only
      split
      · rename_i hn
        have hle : s.rem.toNat % 8 ≤ s.rem.toNat := Nat.mod_le _ _
        obtain ⟨h1, h2⟩ := ih ((s.put len (0x2B % 2 ^ (s.rem.toNat % 8 - 1)) (s.rem.toNat % 8)).took (s.rem.toNat % 8))
          (by show 0 ≤ s.rem - _; omega) (by show (s.rem - _).toNat ≤ f; omega)
        refine ⟨h1, fun i hi => ?_⟩
        rw [h2 i (Nat.lt_of_lt_of_le hi (put_wi_le len (0x2B % 2 ^ (s.rem.toNat % 8 - 1)) (s.rem.toNat % 8) s))]
        exact put_low len (0x2B % 2 ^ (s.rem.toNat % 8 - 1)) (s.rem.toNat % 8) s hi
      · rename_i hn
        obtain ⟨h1, h2⟩ := ih ((s.put len 0x2B 8).took 8)
          (by show 0 ≤ s.rem - _; omega) (by show (s.rem - _).toNat ≤ f; omega)
        refine ⟨h1, fun i hi => ?_⟩
        rw [h2 i (Nat.lt_of_lt_of_le hi (put_wi_le len 0x2B 8 s))]
        exact put_low len 0x2B 8 s hi

/-- Whole octets of padding. -/
theorem padE_octets (len : Nat) : ∀ (k fuel : Nat) (s : ESt), s.rem = 8 * (k : Nat) → 8 * k ≤ fuel → s.wi + 8 * k = len →
    ∀ i, s.wi ≤ i → i < len → (padE len fuel s).vec i = Nat.testBit 0x2B (7 - (i - s.wi) % 8) := by
  intro k
  induction k with
  | zero => intro fuel s _ _ hw i h1 h2; omega
  | succ k ih =>
    intro fuel s hr hf hw i h1 h2
    obtain ⟨f, rfl⟩ : ∃ f, fuel = f + 1 := ⟨fuel - 1, by omega⟩
    unfold padE
    rw [if_neg (by omega)]
    dsimp only
    rw [if_neg (by omega)]
    have hwi : (s.put len 0x2B 8).wi = s.wi + 8 := by unfold ESt.put; dsimp only; rw [if_pos (by omega)]
    by_cases hlt : i < s.wi + 8
    · have := (padE_low len f ((s.put len 0x2B 8).took 8) (by show 0 ≤ s.rem - (8 : Nat); omega)
        (by show (s.rem - (8 : Nat)).toNat ≤ f; omega)).2 i (by show i < (s.put len 0x2B 8).wi; omega)
      rw [this]
      show (s.put len 0x2B 8).vec i = _
      unfold ESt.put; dsimp only
      rw [if_pos ⟨h1, hlt, h2⟩]
      congr 1
      omega
    · rw [ih f ((s.put len 0x2B 8).took 8) (by show s.rem - (8 : Nat) = _; omega) (by omega)
        (by show (s.put len 0x2B 8).wi + _ = _; omega) i (by show (s.put len 0x2B 8).wi ≤ i; omega) h2]
      show Nat.testBit 0x2B (7 - (i - (s.put len 0x2B 8).wi) % 8) = _
      congr 1
      omega

/-- Padding up to the end of the block. -/
theorem padE_aligned (s : ESt) (h : (s.wi : Int) + s.rem = 184) (hr : 0 ≤ s.rem) (i : Nat) (h1 : s.wi ≤ i) (h2 : i < 184) :
    (padE 184 s.rem.toNat s).vec i = (decide (i ≠ s.wi) && Nat.testBit 0x2B (7 - i % 8)) := by
  obtain ⟨r, hr'⟩ : ∃ r : Nat, s.rem = r := ⟨s.rem.toNat, by omega⟩
  rw [hr', Int.toNat_natCast]
  have hw : s.wi + r = 184 := by omega
  by_cases hm : r % 8 = 0
  · have hk := padE_octets 184 (r / 8) r s (by omega) (by omega) (by omega) i h1 h2
    rw [hk]
    have : s.wi % 8 = 0 := by omega
    rw [show (i - s.wi) % 8 = i % 8 by omega]
    by_cases he : i = s.wi
    · subst he
      rw [this]; simp; decide
    · simp [he]
  · obtain ⟨f, rfl⟩ : ∃ f, r = f + 1 := ⟨r - 1, by omega⟩
    unfold padE
    rw [if_neg (by omega)]
    dsimp only
    rw [hr', Int.toNat_natCast, if_pos (by omega)]
    generalize hn : (f + 1) % 8 = n at *
    have hwi : (s.put 184 (0x2B % 2 ^ (n - 1)) n).wi = s.wi + n := by unfold ESt.put; dsimp only; rw [if_pos (by omega)]
    by_cases hlt : i < s.wi + n
    · have := (padE_low 184 f ((s.put 184 (0x2B % 2 ^ (n - 1)) n).took n) (by show 0 ≤ s.rem - (n : Nat); omega)
        (by show (s.rem - (n : Nat)).toNat ≤ f; omega)).2 i (by show i < (s.put 184 (0x2B % 2 ^ (n - 1)) n).wi; omega)
      rw [this]
      show (s.put 184 (0x2B % 2 ^ (n - 1)) n).vec i = _
      unfold ESt.put; dsimp only
      rw [if_pos ⟨h1, hlt, h2⟩, Nat.testBit_mod_two_pow]
      have he : s.wi + n - 1 - i = 7 - i % 8 := by omega
      rw [he]
      congr 1
      rw [decide_eq_decide]
      omega
    · rw [padE_octets 184 (f / 8) f ((s.put 184 (0x2B % 2 ^ (n - 1)) n).took n) (by show s.rem - (n : Nat) = _; omega)
        (by omega) (by show (s.put 184 (0x2B % 2 ^ (n - 1)) n).wi + _ = _; omega) i
        (by show (s.put 184 (0x2B % 2 ^ (n - 1)) n).wi ≤ i; omega) h2]
      show Nat.testBit 0x2B (7 - (i - (s.put 184 (0x2B % 2 ^ (n - 1)) n).wi) % 8) = _
      rw [show (7 - (i - (s.put 184 (0x2B % 2 ^ (n - 1)) n).wi) % 8) = 7 - i % 8 by omega]
      have : i ≠ s.wi := by omega
      simp [this]

/-! ## Encoding -/

/-- The beginning of every uplink message but PACKET PAUSE. -/
theorem ulTable_head {mt : Nat} {t : List Csn} (h : ulTable mt = some t) (h9 : mt ≠ 9) :
    mt < 14 ∧ ∃ x rest, t = (.uint 1 1 2 false :: .uint 2 1 5 false :: x :: .uint 0 1 6 false :: rest) ++ [.padding] ∧
      (x = .bit 3 1 false ∨ x = .uint 3 1 1 false) := by
  match mt, h, h9 with
  | 0, h, _ =>
    have h : some t_Packet_Cell_Change_Failure = some t := h
    obtain rfl := Option.some.inj h
    exact ⟨by decide, _, (t_Packet_Cell_Change_Failure.drop 4).dropLast, rfl, Or.inr rfl⟩
  | 1, h, _ =>
    have h : some t_Packet_Control_Acknowledgement = some t := h
    obtain rfl := Option.some.inj h
    exact ⟨by decide, _, (t_Packet_Control_Acknowledgement.drop 4).dropLast, rfl, Or.inl rfl⟩
  | 2, h, _ =>
    have h : some t_Packet_Downlink_Ack_Nack = some t := h
    obtain rfl := Option.some.inj h
    exact ⟨by decide, _, (t_Packet_Downlink_Ack_Nack.drop 4).dropLast, rfl, Or.inl rfl⟩
  | 3, h, _ =>
    have h : some t_Packet_Uplink_Dummy_Control_Block = some t := h
    obtain rfl := Option.some.inj h
    exact ⟨by decide, _, (t_Packet_Uplink_Dummy_Control_Block.drop 4).dropLast, rfl, Or.inl rfl⟩
  | 4, h, _ =>
    have h : some t_Packet_Measurement_Report = some t := h
    obtain rfl := Option.some.inj h
    exact ⟨by decide, _, (t_Packet_Measurement_Report.drop 4).dropLast, rfl, Or.inr rfl⟩
  | 5, h, _ =>
    have h : some t_Packet_Resource_Request = some t := h
    obtain rfl := Option.some.inj h
    exact ⟨by decide, _, (t_Packet_Resource_Request.drop 4).dropLast, rfl, Or.inr rfl⟩
  | 6, h, _ =>
    have h : some t_Packet_Mobile_TBF_Status = some t := h
    obtain rfl := Option.some.inj h
    exact ⟨by decide, _, (t_Packet_Mobile_TBF_Status.drop 4).dropLast, rfl, Or.inr rfl⟩
  | 7, h, _ =>
    have h : some t_Packet_PSI_Status = some t := h
    obtain rfl := Option.some.inj h
    exact ⟨by decide, _, (t_Packet_PSI_Status.drop 4).dropLast, rfl, Or.inr rfl⟩
  | 8, h, _ =>
    have h : some t_EGPRS_PD_AckNack = some t := h
    obtain rfl := Option.some.inj h
    exact ⟨by decide, _, (t_EGPRS_PD_AckNack.drop 4).dropLast, rfl, Or.inl rfl⟩
  | 9, _, h9 => exact absurd rfl h9
  | 10, h, _ =>
    have h : some t_Packet_Enh_Measurement_Report = some t := h
    obtain rfl := Option.some.inj h
    exact ⟨by decide, _, (t_Packet_Enh_Measurement_Report.drop 4).dropLast, rfl, Or.inr rfl⟩
  | 11, h, _ =>
    have h : some t_Additional_MS_Rad_Access_Cap = some t := h
    obtain rfl := Option.some.inj h
    exact ⟨by decide, _, (t_Additional_MS_Rad_Access_Cap.drop 4).dropLast, rfl, Or.inr rfl⟩
  | 12, h, _ =>
    have h : some t_Packet_Cell_Change_Notification = some t := h
    obtain rfl := Option.some.inj h
    exact ⟨by decide, _, (t_Packet_Cell_Change_Notification.drop 4).dropLast, rfl, Or.inr rfl⟩
  | 13, h, _ =>
    have h : some t_Packet_SI_Status = some t := h
    obtain rfl := Option.some.inj h
    exact ⟨by decide, _, (t_Packet_SI_Status.drop 4).dropLast, rfl, Or.inr rfl⟩
  | n + 14, h, _ =>
    unfold ulTable at h
    simp at h

theorem ulTable_pad {mt : Nat} {t : List Csn} (h : ulTable mt = some t) : t = t.dropLast ++ [.padding] := by
  by_cases h9 : mt = 9
  · subst h9
    have h : some t_Packet_Pause = some t := h
    obtain rfl := Option.some.inj h
    rfl
  · obtain ⟨_, x, rest, rfl, _⟩ := ulTable_head h h9
    rw [List.dropLast_concat]

theorem contains_reads {v : List Bool} {i : Nat} {l : List Bool} : Contains v i l ↔ Reads v i l := by
  unfold Contains Reads
  constructor
  · intro h k b hk
    have hl := (List.getElem?_eq_some_iff.mp hk).1
    rw [← h, List.getElem?_take_of_lt hl, List.getElem?_drop] at hk
    exact hk
  · intro h
    apply List.ext_getElem?
    intro k
    by_cases hk : k < l.length
    · rw [List.getElem?_take_of_lt hk, List.getElem?_drop, h k l[k] (List.getElem?_eq_getElem hk),
        List.getElem?_eq_getElem hk]
    · rw [List.getElem?_eq_none (by rw [List.length_take]; omega), List.getElem?_eq_none (by omega)]

theorem sum_range_shift (f : Nat → Nat) (n : Nat) :
    ((List.range (n + 1)).map f).sum = f 0 + ((List.range n).map fun k => f (k + 1)).sum := by
  rw [List.range_succ_eq_map, List.map_cons, List.sum_cons, List.map_map]; rfl

theorem fieldAt_eq (v : List Bool) : ∀ (n i : Nat), fieldAt v i n = bitsVal v i n := by
  intro n
  induction n with
  | zero => intro i; rfl
  | succ n ih =>
    intro i
    unfold bitsVal
    rw [← ih]
    unfold fieldAt
    rw [sum_range_shift]
    have e : (fun k => if v[i + (k + 1)]? = some true then 2 ^ (n + 1 - 1 - (k + 1)) else 0) =
        fun k => if v[i + 1 + k]? = some true then 2 ^ (n - 1 - k) else 0 := by
      funext k
      rw [show i + (k + 1) = i + 1 + k by omega, show n + 1 - 1 - (k + 1) = n - 1 - k by omega]
    rw [e, Nat.add_zero, Nat.add_sub_cancel, Nat.sub_zero]
    unfold bitAt
    split <;> omega

/-- Encoding a message whose parts fit the block. -/
theorem encode_parts {m : Mem} {l : List Item} (h : ulParts m = some l) (hf : ∀ i ∈ l, i.Fits m) (hs : size l ≤ 184) :
    ∃ s, encodeUplink m = .ok s ∧ Reads (s.bits 184) 0 (code m l) ∧
      (skew l = 0 → s.bits 184 = padded (code m l)) := by
  unfold ulParts at h
  obtain ⟨t, ht, hl⟩ := Option.bind_eq_some_iff.mp h
  obtain ⟨s, he, hw, hr⟩ := encL_lay m 184 t.dropLast 0 {} [] l { vec := dummyVec, wi := 0, bo := 0, rem := 184 }
    [.padding] hl hf (by show 0 + size l ≤ 184; omega) (by show ((size l : Nat) : Int) ≤ 184; omega)
  have hwi : s.wi = size l := by rw [hw.wi]; exact Nat.zero_add _
  have hr : s.rem = 184 - ((size l : Nat) : Int) + ((skew l : Nat) : Int) := hr
  have h0 : 0 ≤ s.rem := by omega
  obtain ⟨p1, p2⟩ := padE_low 184 s.rem.toNat s h0 (Nat.le_refl _)
  have hre : Reads ((padE 184 s.rem.toNat s).bits 184) 0 (code m l) := by
    intro k b hk
    have hk' : k < size l := by
      rw [← code_length m]
      exact (List.getElem?_eq_some_iff.mp hk).1
    rw [Nat.zero_add, bits_get (by omega), p2 k (by omega)]
    have := hw.bits k b hk
    rw [show (0 : Nat) + k = k from Nat.zero_add k] at this
    rw [this]
  refine ⟨padE 184 s.rem.toNat s, ?_, hre, fun hk => ?_⟩
  · unfold encodeUplink
    rw [ht]
    show encDone (encL m 184 0 t {} { vec := dummyVec, wi := 0, bo := 0, rem := 184 }) = _
    rw [ulTable_pad ht, he]
    have hp : encL m 184 0 [.padding] {} s = .ok (padE 184 s.rem.toNat s) := by
      have : encL m 184 0 [.padding] {} s = (encD m 184 false 0 .padding s >>= fun s => encL m 184 0 [] {} s) := by
        conv => lhs; unfold encL
        rw [if_neg (by simp)]
        dsimp only
        rw [if_neg (by omega)]
      rw [this]
      have : encD m 184 false 0 .padding s = .ok (padE 184 s.rem.toNat s) := by
        unfold encD
        rw [if_neg (by simp), if_neg (by omega)]
      rw [this, CRes.bind_ok, encL_end (by omega)]
    rw [hp]
    unfold encDone
    dsimp only
    rw [if_neg (by omega)]
  · apply List.ext_getElem?
    intro i
    unfold padded
    by_cases hi : i < size l
    · rw [List.getElem?_append_left (by rw [code_length]; omega)]
      have hg : (code m l)[i]? = some ((code m l)[i]'(by rw [code_length]; omega)) := List.getElem?_eq_getElem _
      rw [hg]
      have := hre i _ hg
      rw [Nat.zero_add] at this
      exact this
    · rw [List.getElem?_append_right (by rw [code_length]; omega), code_length]
      by_cases h2 : i < 184
      · rw [bits_get h2, List.getElem?_map, List.getElem?_range (by omega)]
        rw [padE_aligned s (by omega) h0 i (by omega) h2, hwi]
        show _ = some _
        congr 2
        · by_cases he : i = size l
          · subst he; simp
          · have : i - size l ≠ 0 := by omega
            simp [he, this]
        · rw [show size l + (i - size l) = i by omega]
      · rw [List.getElem?_eq_none (by unfold ESt.bits; rw [List.length_map, List.length_range]; omega),
          List.getElem?_eq_none (by rw [List.length_map, List.length_range]; omega)]

/-! ## Decoding -/

/-- The lines of a table up to the padding, then the padding. -/
theorem dec_parts {v : List Bool} {m : Mem} {ds : List Csn} {l : List Item} {s : CSt}
    (h : layL m 0 ds {} [] = some l) (hf : ∀ i ∈ l, i.Fits m) (hr : Reads v s.rd (code m l))
    (hs : ((size l : Nat) : Int) ≤ s.rem) :
    ∃ s', decL v .member 0 (ds ++ [.padding]) {} s = .ok s' ∧ s'.mem = upd m l s.mem := by
  obtain ⟨bo, he⟩ := decL_lay v m ds 0 {} [] l s [.padding] h hf Holds.nil hr hs
  have hg : 0 ≤ (s.got m l bo).rem := by show 0 ≤ s.rem - _; omega
  have : decL v .member 0 [.padding] {} (s.got m l bo) =
      (decD v .member false 0 .padding (s.got m l bo) >>= fun s => decL v .member 0 [] {} s) := by
    conv => lhs; unfold decL
    rw [if_neg (by simp)]
    dsimp only
    rw [if_neg (by omega)]
  rw [he, this]
  have : decD v .member false 0 .padding (s.got m l bo) =
      .ok { s.got m l bo with bo := (s.got m l bo).bo + (s.got m l bo).rem.toNat, rem := 0 } := by
    unfold decD
    rw [if_neg (by simp), if_neg (by omega)]
  rw [this, CRes.bind_ok, decL_end (by exact Int.le_refl _)]
  exact ⟨_, rfl, rfl⟩

/-- The header of an uplink message. -/
theorem ulParts_head {m : Mem} {l : List Item} (h : ulParts m = some l) : m 0 % 256 < 14 ∧
    [.fld 1 1 2 0, .fld 2 1 5 0, .fld 3 1 1 0, .fld 0 1 6 0] <+: l := by
  unfold ulParts at h
  obtain ⟨t, ht, hl⟩ := Option.bind_eq_some_iff.mp h
  by_cases h9 : m 0 % 256 = 9
  · rw [h9] at ht
    have ht : some t_Packet_Pause = some t := ht
    obtain rfl := Option.some.inj ht
    exfalso
    have : layL m 0 t_Packet_Pause.dropLast {} [] = none := by
      show layL m 0 [.uint 0 1 2 false, .uint 4 4 32 false, .bitmap 8 6 48] {} [] = none
      simp [layL, layD, uintW]
    rw [this] at hl
    cases hl
  · obtain ⟨hlt, x, rest, rfl, hx⟩ := ulTable_head ht h9
    refine ⟨hlt, ?_⟩
    rw [List.dropLast_concat] at hl
    have e : layL m 0 (.uint 1 1 2 false :: .uint 2 1 5 false :: x :: .uint 0 1 6 false :: rest) {} [] =
        layL m 0 rest {} [.fld 1 1 2 0, .fld 2 1 5 0, .fld 3 1 1 0, .fld 0 1 6 0] := by
      rcases hx with rfl | rfl <;> simp [layL, layD, uintW]
    rw [e] at hl
    exact layL_prefix m rest 0 {} _ l hl

theorem putLe_two (m : Mem) (a x : Nat) (b : Nat) :
    m.putLe a 2 x b = if b = a then x % 256 else if b = a + 1 then x / 256 % 256 else m b := by
  unfold Mem.putLe Mem.putLe Mem.putLe Mem.put
  by_cases h1 : b = a
  · subst h1; rw [if_neg (by omega), if_pos rfl, if_pos rfl]
  · rw [if_neg h1, if_neg h1]

theorem putLe_one' (m : Mem) (a x : Nat) (b : Nat) : m.putLe a 1 x b = if b = a then x % 256 else m b := by
  unfold Mem.putLe Mem.putLe Mem.put
  rfl

/-- Decoding a block with the parts of an uplink message. -/
theorem decode_ul {v : List Bool} {m m0 : Mem} {l : List Item} (h : ulParts m = some l) (hf : ∀ i ∈ l, i.Fits m)
    (hs : size l ≤ 184) (hp : m 1 % 256 = 1 ∨ m 1 % 256 = 2) (hr : Reads v 0 (code m l)) :
    ∃ s, decodeUplink .member v m0 = .ok s ∧
      ∀ a, s.mem a = if carried l a then m a % 256 else if a = ulUnion then 184 else if a = ulUnion + 1 then 0 else m0 a := by
  obtain ⟨hlt, l', rfl⟩ := ulParts_head h
  have h' := h
  unfold ulParts at h'
  obtain ⟨t, ht, hl⟩ := Option.bind_eq_some_iff.mp h'
  rw [Reads.code] at hr
  obtain ⟨hr1, hr2⟩ := hr
  have hh := hr1
  rw [show ([.fld 1 1 2 0, .fld 2 1 5 0, .fld 3 1 1 0, .fld 0 1 6 0] : List Item) =
    [.fld 1 1 2 0] ++ ([.fld 2 1 5 0, .fld 3 1 1 0] ++ [.fld 0 1 6 0]) from rfl, Reads.code, Reads.code] at hh
  obtain ⟨b1, _, b3⟩ := hh
  rw [code_cons, code_nil, List.append_nil] at b1 b3
  unfold Item.code at b1 b3
  have f1 := hf (.fld 1 1 2 0) (by simp)
  have f3 := hf (.fld 0 1 6 0) (by simp)
  unfold Item.Fits at f1 f3
  have e1 := bitsVal_reads b1 f1.2
  have e3 := bitsVal_reads b3 f3.2
  rw [getLe_one, Nat.sub_zero] at e1 e3
  have e3 : bitsVal v 8 6 = m 0 % 256 := e3
  have w1 : wr .member 0 ulUnion 2 0 2 184 { mem := m0, rd := 0, bo := 0, rem := 0 } =
      .ok { mem := m0.putLe ulUnion 2 184, rd := 0, bo := 0, rem := 0 } := rfl
  have w2 : ∀ x, wr .member 0 0 1 0 1 x { mem := m0.putLe ulUnion 2 184, rd := 0, bo := 0, rem := 0 } =
      .ok { mem := (m0.putLe ulUnion 2 184).putLe 0 1 x, rd := 0, bo := 0, rem := 0 } := fun _ => rfl
  obtain ⟨s, he, hm⟩ := dec_parts (v := v) (s := { mem := (m0.putLe ulUnion 2 184).putLe 0 1 (m 0 % 256), rd := 0, bo := 0, rem := 184 })
    hl hf (Reads.code.mpr ⟨hr1, hr2⟩) (by show ((size _ : Nat) : Int) ≤ 184; omega)
  rw [← ulTable_pad ht] at he
  refine ⟨s, ?_, fun a => ?_⟩
  · unfold decodeUplink
    rw [e1, if_neg (by omega), w1, CRes.bind_ok, e3, w2, CRes.bind_ok]
    have : CSt.byte { mem := (m0.putLe ulUnion 2 184).putLe 0 1 (m 0 % 256), rd := 0, bo := 0, rem := 0 } 0 = m 0 % 256 := by
      unfold CSt.byte
      dsimp only
      rw [putLe_one', if_pos rfl]; omega
    rw [this, ht]
    exact he
  · rw [hm]
    unfold upd
    by_cases hc : carried ([.fld 1 1 2 0, .fld 2 1 5 0, .fld 3 1 1 0, .fld 0 1 6 0] ++ l') a = true
    · rw [if_pos hc, if_pos hc]
    · rw [if_neg hc, if_neg hc]
      have ha : a ≠ 0 := by
        rintro rfl
        exact hc (by rw [carried_append]; rfl)
      dsimp only
      rw [putLe_one', if_neg ha, putLe_two]

theorem ite_table {P : List Csn → Prop} {c : Prop} [Decidable c] {a : List Csn} {b : Option (List Csn)} (ha : P a)
    (hb : ∀ t, b = some t → P t) : ∀ t, (if c then some a else b) = some t → P t := by
  intro t h
  split at h
  · cases h; exact ha
  · exact hb t h

theorem dlTable_pad {mt : Nat} : ∀ t, dlTable mt = some t → t = t.dropLast ++ [.padding] := by
  unfold dlTable
  repeat' (refine ite_table rfl ?_)
  intro t h
  cases h

/-! The header of a downlink block. -/

/-- After the header fields up to `bo` were read: only members behind the union, and the message type,
may differ from `m0`. -/
structure HdrOk (m0 : Mem) (rd bo : Nat) (s : CSt) : Prop where
  rd : s.rd = rd
  bo : s.bo = bo
  low : ∀ a, a < dlUnion → s.mem a = m0 a

theorem hdrField_ok {v : List Bool} {m0 : Mem} {rd bo n off : Nat} {s : CSt} (h : HdrOk m0 rd bo s) (ho : dlUnion ≤ off) :
    ∃ s', hdrField v .member off n s = .ok s' ∧ HdrOk m0 (rd + n) bo s' ∧
      (∀ a, a ≠ off → s'.byte a = s.byte a) ∧ (n ≤ 8 → s'.byte off = bitsVal v rd n) := by
  refine ⟨{ s with mem := s.mem.putLe off 1 (bitsVal v s.rd n), rd := s.rd + n }, ?_, ⟨?_, h.bo, ?_⟩, ?_, ?_⟩
  · unfold hdrField wr Pol.store
    rw [if_pos (by simp), CRes.bind_ok]
    simp
  · show s.rd + n = _; rw [h.rd]
  · intro a ha
    show s.mem.putLe off 1 _ a = _
    rw [putLe_one', if_neg (by omega), h.low a ha]
  · intro a ha
    unfold CSt.byte
    show s.mem.putLe off 1 _ a % 256 = _
    rw [putLe_one', if_neg ha]
  · intro hn
    unfold CSt.byte
    show s.mem.putLe off 1 _ off % 256 = _
    rw [putLe_one', if_pos rfl, Nat.mod_mod, h.rd]
    have h1 := bitsVal_lt v n rd
    have h2 : 2 ^ n ≤ 2 ^ 8 := Nat.pow_le_pow_right (by decide) hn
    omega

theorem HdrOk.add8 {m0 rd bo s} (h : HdrOk m0 rd bo s) : HdrOk m0 rd (bo + 8) { s with bo := s.bo + 8 } :=
  ⟨h.rd, by show s.bo + 8 = _; rw [h.bo], h.low⟩

theorem hdrAc_ok {v : List Bool} {m0 : Mem} {rd bo : Nat} {s : CSt} (h : HdrOk m0 rd bo s) :
    ∃ s', hdrAc v .member s = .ok s' ∧
      HdrOk m0 (rd + if s.byte (dlUnion + 7) = 1 then 8 else 0) (bo + if s.byte (dlUnion + 7) = 1 then 8 else 0) s' ∧
      ∀ a, a < dlUnion + 8 → s'.byte a = s.byte a := by
  unfold hdrAc
  split
  · obtain ⟨s1, e1, h1, k1, _⟩ := hdrField_ok (v := v) (n := 2) (off := dlUnion + 8) h (by omega)
    obtain ⟨s2, e2, h2, k2, _⟩ := hdrField_ok (v := v) (n := 5) (off := dlUnion + 9) h1 (by omega)
    obtain ⟨s3, e3, h3, k3, _⟩ := hdrField_ok (v := v) (n := 1) (off := dlUnion + 10) h2 (by omega)
    rw [e1, CRes.bind_ok, e2, CRes.bind_ok, e3, CRes.bind_ok]
    refine ⟨_, rfl, h3.add8, fun a ha => ?_⟩
    show s3.byte a = _
    rw [k3 a (by omega), k2 a (by omega), k1 a (by omega)]
  · exact ⟨s, rfl, h, fun _ _ => rfl⟩

theorem hdrExt_ok {v : List Bool} {m0 : Mem} {rd bo : Nat} {s : CSt} (h : HdrOk m0 rd bo s) :
    ∃ s', hdrExt v .member s = .ok s' ∧
      HdrOk m0 (rd + if s.byte (dlUnion + 4) = 1 ∧ s.byte (dlUnion + 6) = 0 then 8 else 0)
        (bo + if s.byte (dlUnion + 4) = 1 ∧ s.byte (dlUnion + 6) = 0 then 8 else 0) s' ∧
      ∀ a, a < dlUnion + 8 → s'.byte a = s.byte a := by
  unfold hdrExt
  split
  · obtain ⟨s1, e1, h1, k1, _⟩ := hdrField_ok (v := v) (n := 3) (off := dlUnion + 11) h (by omega)
    obtain ⟨s2, e2, h2, k2, _⟩ := hdrField_ok (v := v) (n := 1) (off := dlUnion + 12) h1 (by omega)
    obtain ⟨s3, e3, h3, k3, _⟩ := hdrField_ok (v := v) (n := 4) (off := dlUnion + 13) h2 (by omega)
    rw [e1, CRes.bind_ok, e2, CRes.bind_ok, e3, CRes.bind_ok]
    refine ⟨_, rfl, h3.add8, fun a ha => ?_⟩
    show s3.byte a = _
    rw [k3 a (by omega), k2 a (by omega), k1 a (by omega)]
  · exact ⟨s, rfl, h, fun _ _ => rfl⟩

theorem hdrOpt_ok {v : List Bool} {m0 : Mem} {s : CSt} (h : HdrOk m0 8 8 s) :
    ∃ s', hdrOpt v .member s = .ok s' ∧
      HdrOk m0 (16 + (if bitsVal v 15 1 = 1 then 8 else 0) + (if bitsVal v 8 1 = 1 ∧ bitsVal v 14 1 = 0 then 8 else 0))
        (16 + (if bitsVal v 15 1 = 1 then 8 else 0) + (if bitsVal v 8 1 = 1 ∧ bitsVal v 14 1 = 0 then 8 else 0)) s' ∧
      ∀ a, a < dlUnion + 4 → s'.byte a = s.byte a := by
  unfold hdrOpt
  obtain ⟨s1, e1, h1, k1, b1⟩ := hdrField_ok (v := v) (n := 1) (off := dlUnion + 4) h (by omega)
  obtain ⟨s2, e2, h2, k2, _⟩ := hdrField_ok (v := v) (n := 5) (off := dlUnion + 5) h1 (by omega)
  obtain ⟨s3, e3, h3, k3, b3⟩ := hdrField_ok (v := v) (n := 1) (off := dlUnion + 6) h2 (by omega)
  obtain ⟨s4, e4, h4, k4, b4⟩ := hdrField_ok (v := v) (n := 1) (off := dlUnion + 7) h3 (by omega)
  rw [e1, CRes.bind_ok, e2, CRes.bind_ok, e3, CRes.bind_ok, e4, CRes.bind_ok]
  obtain ⟨s5, e5, h5, k5⟩ := hdrAc_ok (v := v) h4.add8
  rw [e5, CRes.bind_ok]
  obtain ⟨s6, e6, h6, k6⟩ := hdrExt_ok (v := v) h5
  refine ⟨s6, e6, ?_, fun a ha => ?_⟩
  case refine_2 =>
    rw [k6 a (by omega), k5 a (by omega)]
    show s4.byte a = _
    rw [k4 a (by omega), k3 a (by omega), k2 a (by omega), k1 a (by omega)]
  have q7 : CSt.byte { s4 with bo := s4.bo + 8 } (dlUnion + 7) = bitsVal v 15 1 := b4 (by decide)
  have q6 : s5.byte (dlUnion + 6) = bitsVal v 14 1 := by
    rw [k5 _ (by omega)]
    show s4.byte _ = _
    rw [k4 _ (by omega)]
    exact b3 (by decide)
  have q4 : s5.byte (dlUnion + 4) = bitsVal v 8 1 := by
    rw [k5 _ (by omega)]
    show s4.byte _ = _
    rw [k4 _ (by omega), k3 _ (by omega), k2 _ (by omega)]
    exact b1 (by decide)
  rw [q7, q6, q4] at h6
  exact h6

/-- Decoding a block with the parts of a downlink message. -/
theorem decode_dl {v : List Bool} {m m0 : Mem} {mt st : Nat} {l : List Item} (hst : dlStart v = some st)
    (h : dlParts mt m = some l) (hf : ∀ i ∈ l, i.Fits m) (hs : st + size l ≤ 184) (ht : bitsVal v st 6 = mt)
    (hr : Reads v st (code m l)) :
    ∃ s, decodeDownlink .member v m0 = .ok s ∧ (∀ a, carried l a = true → s.mem a = m a % 256) ∧
      (∀ a, carried l a = false → a ≠ 0 → a < dlUnion → s.mem a = m0 a) ∧ (carried l 0 = false → s.mem 0 = mt) ∧
      (carried l (dlUnion + 1) = false → s.mem (dlUnion + 1) % 256 = bitsVal v 2 2) ∧
      (carried l (dlUnion + 2) = false → s.mem (dlUnion + 2) % 256 = bitsVal v 4 1) := by
  unfold dlParts at h
  obtain ⟨t, htab, hl⟩ := Option.bind_eq_some_iff.mp h
  unfold dlStart at hst
  rw [fieldAt_eq, fieldAt_eq, fieldAt_eq, fieldAt_eq] at hst
  have h0 : HdrOk m0 0 0 { mem := m0, rd := 0, bo := 0, rem := 0 } := ⟨rfl, rfl, fun _ _ => rfl⟩
  obtain ⟨s1, e1, h1, k1, b1⟩ := hdrField_ok (v := v) (n := 2) (off := dlUnion) h0 (by omega)
  obtain ⟨s2, e2, h2, k2, b2⟩ := hdrField_ok (v := v) (n := 2) (off := dlUnion + 1) h1 (by omega)
  obtain ⟨s3, e3, h3, k3, b3⟩ := hdrField_ok (v := v) (n := 1) (off := dlUnion + 2) h2 (by omega)
  obtain ⟨s4, e4, h4, k4, _⟩ := hdrField_ok (v := v) (n := 3) (off := dlUnion + 3) h3 (by omega)
  have q : s4.byte dlUnion = bitsVal v 0 2 := by
    rw [k4 _ (by omega), k3 _ (by omega), k2 _ (by omega)]
    exact b1 (by decide)
  have h5 : HdrOk m0 8 8 { s4 with bo := 8 } := ⟨h4.rd, rfl, h4.low⟩
  have hop : ∃ s6, dlOpt v .member { s4 with bo := 8 } = .ok s6 ∧ HdrOk m0 st st s6 ∧
      (s4.byte dlUnion = 1 ∨ s4.byte dlUnion = 2) ∧ ∀ a, a < dlUnion + 4 → s6.byte a = s4.byte a := by
    unfold dlOpt
    rw [show CSt.byte { s4 with bo := 8 } dlUnion = s4.byte dlUnion from rfl, q]
    by_cases c1 : bitsVal v 0 2 = 1
    · rw [if_pos c1] at hst
      obtain rfl := Option.some.inj hst
      rw [if_neg (by omega)]
      exact ⟨_, rfl, h5, Or.inl c1, fun _ _ => rfl⟩
    · rw [if_neg c1] at hst
      by_cases c2 : bitsVal v 0 2 = 2
      · rw [if_pos c2] at hst ⊢
        obtain ⟨s6, e6, h6, k6⟩ := hdrOpt_ok (v := v) h5
        rw [Option.some.inj hst] at h6
        exact ⟨s6, e6, h6, Or.inr c2, k6⟩
      · rw [if_neg c2] at hst; cases hst
  obtain ⟨s6, e6, h6, hpt, k6⟩ := hop
  have hmt : mt < 64 := by rw [← ht]; exact bitsVal_lt v 6 st
  have e7 : hdrField v .member 0 6 s6 = .ok { s6 with mem := s6.mem.putLe 0 1 mt, rd := s6.rd + 6 } := by
    unfold hdrField wr Pol.store
    rw [if_pos (by simp), CRes.bind_ok, h6.rd, ht]
  have e8 : ∀ s : CSt, ∀ x, wr .member 0 (dlUnion + 14) 2 0 2 x s = .ok { s with mem := s.mem.putLe (dlUnion + 14) 2 x } := by
    intro s x
    unfold wr Pol.store
    rw [if_pos (by simp)]
    simp
  obtain ⟨s9, e9, h9⟩ := dec_parts (v := v) (s := { mem := (s6.mem.putLe 0 1 mt).putLe (dlUnion + 14) 2 (184 - st), rd := st, bo := st, rem := ((184 - st : Nat) : Int) }) hl hf hr (by show ((size l : Nat) : Int) ≤ ((184 - st : Nat) : Int); omega)
  rw [← dlTable_pad t htab] at e9
  refine ⟨s9, ?_, fun a ha => ?_, fun a ha hz hu => ?_, fun ha => ?_, fun ha => ?_, fun ha => ?_⟩
  · unfold decodeDownlink
    rw [e1, CRes.bind_ok, e2, CRes.bind_ok, e3, CRes.bind_ok, e4, CRes.bind_ok, if_neg (by omega), e6, CRes.bind_ok]
    unfold dlBody
    rw [e7, CRes.bind_ok]
    dsimp only
    rw [h6.bo, e8, CRes.bind_ok]
    have : CSt.byte { mem := (s6.mem.putLe 0 1 mt).putLe (dlUnion + 14) 2 (184 - st), rd := (s6.rd + 6), bo := st, rem := s6.rem } 0 = mt := by
      unfold CSt.byte
      dsimp only
      rw [putLe_two, if_neg (by decide), if_neg (by decide), putLe_one', if_pos rfl]; omega
    rw [this, htab]
    exact e9
  · rw [h9]; unfold upd; rw [if_pos ha]
  · rw [h9]; unfold upd; rw [if_neg (by rw [ha]; simp)]
    dsimp only
    rw [putLe_two, if_neg (by omega), if_neg (by omega), putLe_one', if_neg hz, h6.low a hu]
  · rw [h9]; unfold upd; rw [if_neg (by rw [ha]; simp)]
    dsimp only
    rw [putLe_two, if_neg (by decide), if_neg (by decide), putLe_one', if_pos rfl]; omega
  · rw [h9]; unfold upd; rw [if_neg (by rw [ha]; simp)]
    dsimp only
    rw [putLe_two, if_neg (by omega), if_neg (by omega), putLe_one', if_neg (by decide)]
    show s6.byte _ = _
    rw [k6 _ (by omega), k4 _ (by omega), k3 _ (by omega)]
    exact b2 (by decide)
  · rw [h9]; unfold upd; rw [if_neg (by rw [ha]; simp)]
    dsimp only
    rw [putLe_two, if_neg (by omega), if_neg (by omega), putLe_one', if_neg (by decide)]
    show s6.byte _ = _
    rw [k6 _ (by omega), k4 _ (by omega)]
    exact b3 (by decide)

end Verif.Csn1
