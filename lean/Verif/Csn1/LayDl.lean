import Verif.Csn1.LayTop
import Verif.Csn1.EncDl
import Verif.Spec.DlHeader

/-!
# Lemmas: encoding of downlink control messages
-/
namespace Verif.Csn1
open Verif.Spec

/-- The header in the structure. -/
def hdrOf (m : Mem) : DlHdr where
  payload := m dlUnion % 256
  rrbp := m (dlUnion + 1) % 256
  sp := m (dlUnion + 2) % 256
  usf := m (dlUnion + 3) % 256
  rbsn := m (dlUnion + 4) % 256
  rti := m (dlUnion + 5) % 256
  fs := m (dlUnion + 6) % 256
  ac := m (dlUnion + 7) % 256
  pr := m (dlUnion + 8) % 256
  tfi := m (dlUnion + 9) % 256
  d := m (dlUnion + 10) % 256
  rbsne := m (dlUnion + 11) % 256
  fse := m (dlUnion + 12) % 256
  spare := m (dlUnion + 13) % 256

def hdr1Items (h : DlHdr) : List Item := [.con 2 h.payload] ++ [.con 2 h.rrbp] ++ [.con 1 h.sp] ++ [.con 3 h.usf]
def hdr2Items (h : DlHdr) : List Item := [.con 1 h.rbsn] ++ [.con 5 h.rti] ++ [.con 1 h.fs] ++ [.con 1 h.ac]
def hdr3Items (h : DlHdr) : List Item := if h.ac = 1 then [.con 2 h.pr] ++ [.con 5 h.tfi] ++ [.con 1 h.d] else []
def hdr4Items (h : DlHdr) : List Item :=
  if h.rbsn = 1 ∧ h.fs = 0 then [.con 3 h.rbsne] ++ [.con 1 h.fse] ++ [.con 4 h.spare] else []
def hdrItems (h : DlHdr) : List Item :=
  hdr1Items h ++ (if h.payload = 2 then hdr2Items h ++ hdr3Items h ++ hdr4Items h else [])

theorem hdrItems_code (m : Mem) (h : DlHdr) : code m (hdrItems h) = h.bits := by
  unfold hdrItems DlHdr.bits hdr1Items hdr2Items hdr3Items hdr4Items DlHdr.hasTfi DlHdr.hasExt
  by_cases h2 : h.payload = 2 <;> by_cases h3 : h.ac = 1 <;> by_cases h4 : h.rbsn = 1 <;> by_cases h5 : h.fs = 0 <;>
    simp [h2, h3, h4, h5, code, Item.code]

theorem encHdr_wrote {m : Mem} {k n x : Nat} {s : ESt} (hx : m (dlUnion + k) % 256 = x) (h : s.wi + n ≤ 184) :
    Wrote m [.con n x] s (encHdr m k n s) := by
  subst hx
  exact con_wrote h

theorem encHdr_wi {m : Mem} {k n : Nat} {s : ESt} (h : s.wi + n ≤ 184) : (encHdr m k n s).wi = s.wi + n := by
  unfold encHdr ESt.put
  dsimp only
  rw [if_pos h]

theorem encHdrAc_wrote {m : Mem} {s : ESt} (h : s.wi + 8 ≤ 184) :
    Wrote m (hdr3Items (hdrOf m)) s (encHdrAc m s) ∧ (encHdrAc m s).bo = s.bo + size (hdr3Items (hdrOf m)) := by
  unfold encHdrAc hdr3Items
  by_cases c : m (dlUnion + 7) % 256 = 1
  · rw [if_pos c, if_pos (show (hdrOf m).ac = 1 from c)]
    refine ⟨?_, rfl⟩
    have w1 := encHdr_wi (m := m) (k := 8) (n := 2) (s := s) (by omega)
    have w2 := encHdr_wi (m := m) (k := 9) (n := 5) (s := encHdr m 8 2 s) (by omega)
    have a := encHdr_wrote (m := m) (k := 8) (n := 2) (s := s) rfl (by omega)
    have b := encHdr_wrote (m := m) (k := 9) (n := 5) (s := encHdr m 8 2 s) rfl (by omega)
    have c := encHdr_wrote (m := m) (k := 10) (n := 1) (s := encHdr m 9 5 (encHdr m 8 2 s)) rfl (by omega)
    exact ((a.trans b).trans c).congr rfl rfl
  · rw [if_neg c, if_neg (show ¬ (hdrOf m).ac = 1 from c)]
    exact ⟨Wrote.nil, rfl⟩

theorem encHdrExt_wrote {m : Mem} {s : ESt} (h : s.wi + 8 ≤ 184) :
    Wrote m (hdr4Items (hdrOf m)) s (encHdrExt m s) ∧ (encHdrExt m s).bo = s.bo + size (hdr4Items (hdrOf m)) := by
  unfold encHdrExt hdr4Items
  by_cases c : m (dlUnion + 4) % 256 = 1 ∧ m (dlUnion + 6) % 256 = 0
  · rw [if_pos c, if_pos (show (hdrOf m).rbsn = 1 ∧ (hdrOf m).fs = 0 from c)]
    refine ⟨?_, rfl⟩
    have w1 := encHdr_wi (m := m) (k := 11) (n := 3) (s := s) (by omega)
    have w2 := encHdr_wi (m := m) (k := 12) (n := 1) (s := encHdr m 11 3 s) (by omega)
    have a := encHdr_wrote (m := m) (k := 11) (n := 3) (s := s) rfl (by omega)
    have b := encHdr_wrote (m := m) (k := 12) (n := 1) (s := encHdr m 11 3 s) rfl (by omega)
    have c := encHdr_wrote (m := m) (k := 13) (n := 4) (s := encHdr m 12 1 (encHdr m 11 3 s)) rfl (by omega)
    exact ((a.trans b).trans c).congr rfl rfl
  · rw [if_neg c, if_neg (show ¬ ((hdrOf m).rbsn = 1 ∧ (hdrOf m).fs = 0) from c)]
    exact ⟨Wrote.nil, rfl⟩

theorem hdr3_size (h : DlHdr) : size (hdr3Items h) ≤ 8 := by
  unfold hdr3Items; split <;> simp [size, Item.size]

theorem encHeader_wrote {m : Mem} {s : ESt} (hs : s.wi = 0) :
    Wrote m (hdrItems (hdrOf m)) s (encHeader m s) ∧ (encHeader m s).bo = size (hdrItems (hdrOf m)) := by
  have w1 := encHdr_wi (m := m) (k := 0) (n := 2) (s := s) (by omega)
  have w2 := encHdr_wi (m := m) (k := 1) (n := 2) (s := encHdr m 0 2 s) (by omega)
  have w3 := encHdr_wi (m := m) (k := 2) (n := 1) (s := encHdr m 1 2 (encHdr m 0 2 s)) (by omega)
  have w4 := encHdr_wi (m := m) (k := 3) (n := 3) (s := encHdr m 2 1 (encHdr m 1 2 (encHdr m 0 2 s))) (by omega)
  have a := encHdr_wrote (m := m) (k := 0) (n := 2) (s := s) rfl (by omega)
  have b := encHdr_wrote (m := m) (k := 1) (n := 2) (s := encHdr m 0 2 s) rfl (by omega)
  have c := encHdr_wrote (m := m) (k := 2) (n := 1) (s := encHdr m 1 2 (encHdr m 0 2 s)) rfl (by omega)
  have d := encHdr_wrote (m := m) (k := 3) (n := 3) (s := encHdr m 2 1 (encHdr m 1 2 (encHdr m 0 2 s))) rfl (by omega)
  have q : Wrote m (hdr1Items (hdrOf m)) s
      { encHdr m 3 3 (encHdr m 2 1 (encHdr m 1 2 (encHdr m 0 2 s))) with bo := 8 } :=
    (((a.trans b).trans c).trans d).congr rfl rfl
  have qw : (encHdr m 3 3 (encHdr m 2 1 (encHdr m 1 2 (encHdr m 0 2 s)))).wi = 8 := by omega
  unfold encHeader hdrItems
  generalize hs0 : ({ encHdr m 3 3 (encHdr m 2 1 (encHdr m 1 2 (encHdr m 0 2 s))) with bo := 8 } : ESt) = t at *
  have tw : t.wi = 8 := by rw [← hs0]; exact qw
  have tb : t.bo = 8 := by rw [← hs0]
  unfold encHdrOpt
  by_cases h2 : m dlUnion % 256 = 2
  · rw [if_pos h2, if_pos (show (hdrOf m).payload = 2 from h2)]
    have u1 := encHdr_wi (m := m) (k := 4) (n := 1) (s := t) (by omega)
    have u2 := encHdr_wi (m := m) (k := 5) (n := 5) (s := encHdr m 4 1 t) (by omega)
    have u3 := encHdr_wi (m := m) (k := 6) (n := 1) (s := encHdr m 5 5 (encHdr m 4 1 t)) (by omega)
    have u4 := encHdr_wi (m := m) (k := 7) (n := 1) (s := encHdr m 6 1 (encHdr m 5 5 (encHdr m 4 1 t))) (by omega)
    have a := encHdr_wrote (m := m) (k := 4) (n := 1) (s := t) rfl (by omega)
    have b := encHdr_wrote (m := m) (k := 5) (n := 5) (s := encHdr m 4 1 t) rfl (by omega)
    have c := encHdr_wrote (m := m) (k := 6) (n := 1) (s := encHdr m 5 5 (encHdr m 4 1 t)) rfl (by omega)
    have d := encHdr_wrote (m := m) (k := 7) (n := 1) (s := encHdr m 6 1 (encHdr m 5 5 (encHdr m 4 1 t))) rfl (by omega)
    generalize hs1 : ({ encHdr m 7 1 (encHdr m 6 1 (encHdr m 5 5 (encHdr m 4 1 t))) with
      bo := (encHdr m 7 1 (encHdr m 6 1 (encHdr m 5 5 (encHdr m 4 1 t)))).bo + 8 } : ESt) = r at *
    have e : Wrote m (hdr2Items (hdrOf m)) t r := (((a.trans b).trans c).trans d).congr (by rw [← hs1]) (by rw [← hs1])
    have rw' : r.wi = 16 := by rw [← hs1]; show (encHdr m 7 1 (encHdr m 6 1 (encHdr m 5 5 (encHdr m 4 1 t)))).wi = _; omega
    have rb : r.bo = 16 := by
      rw [← hs1]; show t.bo + 8 = 16; omega
    obtain ⟨f, fb⟩ := encHdrAc_wrote (m := m) (s := r) (by omega)
    have fw := f.wi
    have f8 := hdr3_size (hdrOf m)
    obtain ⟨g, gb⟩ := encHdrExt_wrote (m := m) (s := encHdrAc m r) (by omega)
    refine ⟨?_, ?_⟩
    · dsimp only
      rw [hs1]
      exact q.trans ((e.trans f).trans g)
    · dsimp only
      rw [hs1, gb, fb, rb, size_append, size_append, size_append]
      rw [show size (hdr1Items (hdrOf m)) = 8 from rfl, show size (hdr2Items (hdrOf m)) = 8 from rfl]
      omega
  · rw [if_neg h2, if_neg (show ¬ (hdrOf m).payload = 2 from h2), List.append_nil]
    exact ⟨q, by rw [tb]; rfl⟩

/-- A vector with the parts `L` written, then padded. -/
theorem pad_tail {m : Mem} {L : List Item} {s0 s : ESt} {k : Nat} (hw : Wrote m L s0 s) (h00 : s0.wi = 0) (hs : size L ≤ 184)
    (hr : s.rem = 184 - ((size L : Nat) : Int) + (k : Int)) :
    ∃ s', encDone (encL m 184 0 [.padding] {} s) = .ok s' ∧ Reads (s'.bits 184) 0 (code m L) ∧
      (k = 0 → s'.bits 184 = padded (code m L)) := by
  have hwi : s.wi = size L := by rw [hw.wi, h00]; exact Nat.zero_add _
  have h0 : 0 ≤ s.rem := by omega
  obtain ⟨p1, p2⟩ := padE_low 184 s.rem.toNat s h0 (Nat.le_refl _)
  have hre : Reads ((padE 184 s.rem.toNat s).bits 184) 0 (code m L) := by
    intro k b hk
    have hk' : k < size L := by
      rw [← code_length m]
      exact (List.getElem?_eq_some_iff.mp hk).1
    rw [Nat.zero_add, bits_get (by omega), p2 k (by omega)]
    have := hw.bits k b hk
    rw [h00, show (0 : Nat) + k = k from Nat.zero_add k] at this
    rw [this]
  refine ⟨padE 184 s.rem.toNat s, ?_, hre, fun hk => ?_⟩
  · have hp : encL m 184 0 [.padding] {} s = .ok (padE 184 s.rem.toNat s) := by
      have : encL m 184 0 [.padding] {} s = (encD m 184 false 0 .padding s >>= fun s => encL m 184 0 [] {} s) := by
        conv => lhs; unfold encL
        rw [if_neg (by simp)]
        dsimp only
        rw [if_neg (by omega)]
      rw [this]
      have : encD m 184 false 0 .padding s = .ok (padE 184 s.rem.toNat s) := by
        unfold encD
        rw [if_neg (by simp), if_neg (by omega)]
      rw [this, CRes.bind_ok, encL_end (by omega)]
    rw [hp]
    unfold encDone
    dsimp only
    rw [if_neg (by omega)]
  · apply List.ext_getElem?
    intro i
    unfold padded
    by_cases hi : i < size L
    · rw [List.getElem?_append_left (by rw [code_length]; omega)]
      have hg : (code m L)[i]? = some ((code m L)[i]'(by rw [code_length]; omega)) := List.getElem?_eq_getElem _
      rw [hg]
      have := hre i _ hg
      rw [Nat.zero_add] at this
      exact this
    · rw [List.getElem?_append_right (by rw [code_length]; omega), code_length]
      by_cases h2 : i < 184
      · rw [bits_get h2, List.getElem?_map, List.getElem?_range (by omega)]
        rw [padE_aligned s (by omega) h0 i (by omega) h2, hwi]
        show _ = some _
        congr 2
        · by_cases he : i = size L
          · subst he; simp
          · have : i - size L ≠ 0 := by omega
            simp [he, this]
        · rw [show size L + (i - size L) = i by omega]
      · rw [List.getElem?_eq_none (by simp [ESt.bits]; omega), List.getElem?_eq_none (by simp; omega)]

/-- Encoding a downlink message whose parts fit the block. -/
theorem encode_dl {v0 : Nat → Bool} {m : Mem} {l : List Item} (hp : m dlUnion % 256 = 1 ∨ m dlUnion % 256 = 2)
    (h : dlParts (m 0 % 256) m = some l) (hf : ∀ i ∈ l, i.Fits m) (hs : (hdrOf m).bits.length + size l ≤ 184) :
    ∃ s, encodeDownlink v0 m = .ok s ∧ Reads (s.bits 184) 0 ((hdrOf m).bits ++ code m l) ∧
      (skew l = 0 → s.bits 184 = padded ((hdrOf m).bits ++ code m l)) := by
  unfold dlParts at h
  obtain ⟨t, ht, hl⟩ := Option.bind_eq_some_iff.mp h
  obtain ⟨q, qb⟩ := encHeader_wrote (m := m) (s := { vec := v0, wi := 0, bo := 0, rem := 0 }) rfl
  have qw := q.wi
  rw [← hdrItems_code m, code_length] at hs
  generalize hH : encHeader m { vec := v0, wi := 0, bo := 0, rem := 0 } = H at *
  have qw' : H.wi = size (hdrItems (hdrOf m)) := by rw [qw]; exact Nat.zero_add _
  obtain ⟨s, he, hw, hr⟩ := encL_lay m 184 t.dropLast 0 {} [] l { H with rem := 184 - (H.bo : Int) }
    [.padding] hl hf (by show H.wi + size l ≤ 184; omega) (by show ((size l : Nat) : Int) ≤ 184 - (H.bo : Int); omega)
  have hW : Wrote m (hdrItems (hdrOf m) ++ l) { vec := v0, wi := 0, bo := 0, rem := 0 } s :=
    q.trans (hw.from rfl rfl)
  rw [← hdrItems_code m, ← code_append]
  have hr' : s.rem = 184 - (H.bo : Int) - ((size l : Nat) : Int) + ((skew l : Nat) : Int) := hr
  obtain ⟨s', e1, e2, e3⟩ := pad_tail (k := skew l) hW rfl (by rw [size_append]; omega) (by rw [size_append]; omega)
  refine ⟨s', ?_, e2, e3⟩
  unfold encodeDownlink
  rw [if_neg (by omega)]
  dsimp only
  rw [ht, hH]
  show encDone (encL m 184 0 t {} { H with rem := 184 - (H.bo : Int) }) = _
  rw [dlTable_pad t ht, he, e1]

/-! ## Decoding -/

theorem dlTable_head {mt : Nat} (h : mt ≠ 55) : ∀ t, dlTable mt = some t → t.head? = some (.uint 0 1 6 false) := by
  unfold dlTable
  iterate 24 refine ite_table rfl ?_
  rw [if_neg h]
  exact fun t h => nomatch h

/-- The message type comes first. -/
theorem dlParts_type {mt : Nat} {m : Mem} {l : List Item} (h55 : mt ≠ 55) (h : dlParts mt m = some l) :
    [.fld 0 1 6 0] <+: l := by
  unfold dlParts at h
  obtain ⟨t, ht, hl⟩ := Option.bind_eq_some_iff.mp h
  have h1 := dlTable_head h55 t ht
  have h2 := dlTable_pad t ht
  obtain ⟨d, ds, hd⟩ : ∃ d ds, t.dropLast = d :: ds := by
    cases hq : t.dropLast with
    | nil =>
      rw [hq] at h2
      rw [h2] at h1
      simp at h1
    | cons d ds => exact ⟨d, ds, rfl⟩
  rw [hd] at h2 hl
  rw [h2] at h1
  obtain rfl : d = .uint 0 1 6 false := by simpa using h1
  have e : layL m 0 (.uint 0 1 6 false :: ds) {} [] = layL m 0 ds {} [.fld 0 1 6 0] := by
    simp [layL, layD, uintW]
  rw [e] at hl
  exact layL_prefix m ds 0 {} _ l hl

/-- In a PACKET SYSTEM INFORMATION 13 it comes first as well, but the member is the second octet. -/
theorem psi13_type {m : Mem} {l : List Item} (h : dlParts 55 m = some l) : [.fld 1 1 6 0] <+: l := by
  unfold dlParts at h
  obtain ⟨t, ht, hl⟩ := Option.bind_eq_some_iff.mp h
  obtain rfl : t_PSI13 = t := by
    have : dlTable 55 = some t_PSI13 := by simp [dlTable]
    exact Option.some.inj (this.symm.trans ht)
  obtain ⟨ds, hd⟩ : ∃ ds, t_PSI13.dropLast = .uint 1 1 6 false :: ds := ⟨t_PSI13.dropLast.drop 1, by unfold t_PSI13; rfl⟩
  rw [hd] at hl
  have e : layL m 0 (.uint 1 1 6 false :: ds) {} [] = layL m 0 ds {} [.fld 1 1 6 0] := by
    simp [layL, layD, uintW]
  rw [e] at hl
  exact layL_prefix m _ 0 {} _ l hl

theorem hdrAc_all {v : List Bool} {m0 : Mem} {rd bo : Nat} {s : CSt} (h : HdrOk m0 rd bo s) :
    ∃ s', hdrAc v .member s = .ok s' ∧
      HdrOk m0 (rd + if s.byte (dlUnion + 7) = 1 then 8 else 0) (bo + if s.byte (dlUnion + 7) = 1 then 8 else 0) s' ∧
      (∀ a, a < dlUnion + 8 → s'.byte a = s.byte a) ∧
      (s.byte (dlUnion + 7) = 1 → s'.byte (dlUnion + 8) = bitsVal v rd 2 ∧ s'.byte (dlUnion + 9) = bitsVal v (rd + 2) 5 ∧
        s'.byte (dlUnion + 10) = bitsVal v (rd + 2 + 5) 1) := by
  unfold hdrAc
  split
  · obtain ⟨s1, e1, h1, k1, b1⟩ := hdrField_ok (v := v) (n := 2) (off := dlUnion + 8) h (by omega)
    obtain ⟨s2, e2, h2, k2, b2⟩ := hdrField_ok (v := v) (n := 5) (off := dlUnion + 9) h1 (by omega)
    obtain ⟨s3, e3, h3, k3, b3⟩ := hdrField_ok (v := v) (n := 1) (off := dlUnion + 10) h2 (by omega)
    rw [e1, CRes.bind_ok, e2, CRes.bind_ok, e3, CRes.bind_ok]
    refine ⟨_, rfl, h3.add8, fun a ha => ?_, fun _ => ⟨?_, ?_, ?_⟩⟩
    · show s3.byte a = _
      rw [k3 a (by omega), k2 a (by omega), k1 a (by omega)]
    · show s3.byte _ = _
      rw [k3 _ (by omega), k2 _ (by omega), b1 (by decide)]
    · show s3.byte _ = _
      rw [k3 _ (by omega), b2 (by decide)]
    · exact b3 (by decide)
  · rename_i hc
    exact ⟨s, rfl, h, fun _ _ => rfl, fun hh => absurd hh hc⟩

theorem hdrExt_all {v : List Bool} {m0 : Mem} {rd bo : Nat} {s : CSt} (h : HdrOk m0 rd bo s) :
    ∃ s', hdrExt v .member s = .ok s' ∧
      HdrOk m0 (rd + if s.byte (dlUnion + 4) = 1 ∧ s.byte (dlUnion + 6) = 0 then 8 else 0)
        (bo + if s.byte (dlUnion + 4) = 1 ∧ s.byte (dlUnion + 6) = 0 then 8 else 0) s' ∧
      (∀ a, a < dlUnion + 11 → s'.byte a = s.byte a) ∧
      (s.byte (dlUnion + 4) = 1 ∧ s.byte (dlUnion + 6) = 0 → s'.byte (dlUnion + 11) = bitsVal v rd 3 ∧
        s'.byte (dlUnion + 12) = bitsVal v (rd + 3) 1 ∧ s'.byte (dlUnion + 13) = bitsVal v (rd + 3 + 1) 4) := by
  unfold hdrExt
  split
  · obtain ⟨s1, e1, h1, k1, b1⟩ := hdrField_ok (v := v) (n := 3) (off := dlUnion + 11) h (by omega)
    obtain ⟨s2, e2, h2, k2, b2⟩ := hdrField_ok (v := v) (n := 1) (off := dlUnion + 12) h1 (by omega)
    obtain ⟨s3, e3, h3, k3, b3⟩ := hdrField_ok (v := v) (n := 4) (off := dlUnion + 13) h2 (by omega)
    rw [e1, CRes.bind_ok, e2, CRes.bind_ok, e3, CRes.bind_ok]
    refine ⟨_, rfl, h3.add8, fun a ha => ?_, fun _ => ⟨?_, ?_, ?_⟩⟩
    · show s3.byte a = _
      rw [k3 a (by omega), k2 a (by omega), k1 a (by omega)]
    · show s3.byte _ = _
      rw [k3 _ (by omega), k2 _ (by omega), b1 (by decide)]
    · show s3.byte _ = _
      rw [k3 _ (by omega), b2 (by decide)]
    · exact b3 (by decide)
  · rename_i hc
    exact ⟨s, rfl, h, fun _ _ => rfl, fun hh => absurd hh hc⟩

/-- What the header octets of a block say about the header members, as far as they are there. -/
structure HdrSays (h g : DlHdr) : Prop where
  payload : g.payload = h.payload
  rrbp : g.rrbp = h.rrbp
  sp : g.sp = h.sp
  usf : g.usf = h.usf
  opt : h.payload = 2 → g.rbsn = h.rbsn ∧ g.rti = h.rti ∧ g.fs = h.fs ∧ g.ac = h.ac
  tfi : h.hasTfi → g.pr = h.pr ∧ g.tfi = h.tfi ∧ g.d = h.d
  ext : h.hasExt → g.rbsne = h.rbsne ∧ g.fse = h.fse ∧ g.spare = h.spare

/-- The header is read as it was written. -/
theorem hdr_all {v : List Bool} {m0 : Mem} {h : DlHdr} (ok : h.Ok) (hv : Reads v 0 h.bits) :
    ∃ s1 s2 s3 s4 s6, hdrField v .member dlUnion 2 { mem := m0, rd := 0, bo := 0, rem := 0 } = .ok s1 ∧
      hdrField v .member (dlUnion + 1) 2 s1 = .ok s2 ∧ hdrField v .member (dlUnion + 2) 1 s2 = .ok s3 ∧
      hdrField v .member (dlUnion + 3) 3 s3 = .ok s4 ∧ s4.byte dlUnion = h.payload ∧
      dlOpt v .member { s4 with bo := 8 } = .ok s6 ∧ HdrOk m0 h.bits.length h.bits.length s6 ∧ HdrSays h (hdrOf s6.mem) := by
  have h0 : HdrOk m0 0 0 { mem := m0, rd := 0, bo := 0, rem := 0 } := ⟨rfl, rfl, fun _ _ => rfl⟩
  obtain ⟨s1, e1, h1, k1, b1⟩ := hdrField_ok (v := v) (n := 2) (off := dlUnion) h0 (by omega)
  obtain ⟨s2, e2, h2, k2, b2⟩ := hdrField_ok (v := v) (n := 2) (off := dlUnion + 1) h1 (by omega)
  obtain ⟨s3, e3, h3, k3, b3⟩ := hdrField_ok (v := v) (n := 1) (off := dlUnion + 2) h2 (by omega)
  obtain ⟨s4, e4, h4, k4, b4⟩ := hdrField_ok (v := v) (n := 3) (off := dlUnion + 3) h3 (by omega)
  unfold DlHdr.bits at hv
  obtain ⟨r1, hv⟩ := Reads.append.1 hv
  obtain ⟨r1, r14⟩ := Reads.append.1 r1
  obtain ⟨r1, r13⟩ := Reads.append.1 r1
  obtain ⟨r11, r12⟩ := Reads.append.1 r1
  simp only [List.length_append, natBits_length] at r14 r13 r12 hv
  have q0 : s4.byte dlUnion = h.payload := by
    rw [k4 _ (by omega), k3 _ (by omega), k2 _ (by omega), b1 (by decide)]
    exact bitsVal_reads r11 (by have := ok.payload; omega)
  have q1 : s4.byte (dlUnion + 1) = h.rrbp := by
    rw [k4 _ (by omega), k3 _ (by omega), b2 (by decide)]
    exact bitsVal_reads r12 ok.rrbp
  have q2 : s4.byte (dlUnion + 2) = h.sp := by
    rw [k4 _ (by omega), b3 (by decide)]
    exact bitsVal_reads r13 ok.sp
  have q3 : s4.byte (dlUnion + 3) = h.usf := by
    rw [b4 (by decide)]
    exact bitsVal_reads r14 ok.usf
  have h5 : HdrOk m0 8 8 { s4 with bo := 8 } := ⟨h4.rd, rfl, h4.low⟩
  refine ⟨s1, s2, s3, s4, ?_⟩
  rcases ok.payload with hp | hp
  · refine ⟨{ s4 with bo := 8 }, e1, e2, e3, e4, q0, ?_, ?_, ?_⟩
    · unfold dlOpt
      rw [show CSt.byte { s4 with bo := 8 } dlUnion = s4.byte dlUnion from rfl, q0, if_neg (by omega)]
    · have : h.bits.length = 8 := by
        unfold DlHdr.bits DlHdr.hasTfi DlHdr.hasExt
        simp [hp, natBits_length]
      rw [this]; exact h5
    · refine ⟨q0, q1, q2, q3, by omega, fun hh => ?_, fun hh => ?_⟩
      · simp [DlHdr.hasTfi, hp] at hh
      · simp [DlHdr.hasExt, hp] at hh
  · rw [if_pos hp] at hv
    obtain ⟨r2, hv⟩ := Reads.append.1 hv
    obtain ⟨r2, r24⟩ := Reads.append.1 r2
    obtain ⟨r2, r23⟩ := Reads.append.1 r2
    obtain ⟨r21, r22⟩ := Reads.append.1 r2
    obtain ⟨r3, r4⟩ := Reads.append.1 hv
    simp only [List.length_append, natBits_length] at r24 r23 r22 r21 r3 r4
    obtain ⟨t1, f1, g1, l1, c1⟩ := hdrField_ok (v := v) (n := 1) (off := dlUnion + 4) h5 (by omega)
    obtain ⟨t2, f2, g2, l2, c2⟩ := hdrField_ok (v := v) (n := 5) (off := dlUnion + 5) g1 (by omega)
    obtain ⟨t3, f3, g3, l3, c3⟩ := hdrField_ok (v := v) (n := 1) (off := dlUnion + 6) g2 (by omega)
    obtain ⟨t4, f4, g4, l4, c4⟩ := hdrField_ok (v := v) (n := 1) (off := dlUnion + 7) g3 (by omega)
    obtain ⟨t5, f5, g5, l5, c5⟩ := hdrAc_all (v := v) g4.add8
    obtain ⟨t6, f6, g6, l6, c6⟩ := hdrExt_all (v := v) g5
    have z4 : t4.byte (dlUnion + 4) = h.rbsn := by
      rw [l4 _ (by omega), l3 _ (by omega), l2 _ (by omega), c1 (by decide)]
      exact bitsVal_reads r21 ok.rbsn
    have z5 : t4.byte (dlUnion + 5) = h.rti := by
      rw [l4 _ (by omega), l3 _ (by omega), c2 (by decide)]
      exact bitsVal_reads r22 ok.rti
    have z6 : t4.byte (dlUnion + 6) = h.fs := by
      rw [l4 _ (by omega), c3 (by decide)]
      exact bitsVal_reads r23 ok.fs
    have z7 : t4.byte (dlUnion + 7) = h.ac := by
      rw [c4 (by decide)]
      exact bitsVal_reads r24 ok.ac
    have low : ∀ a, a < dlUnion + 4 → t6.byte a = s4.byte a := by
      intro a ha
      rw [l6 _ (by omega), l5 _ (by omega)]
      show t4.byte a = _
      rw [l4 _ (by omega), l3 _ (by omega), l2 _ (by omega), l1 _ (by omega)]
      rfl
    have mid : ∀ a, a < dlUnion + 8 → t6.byte a = t4.byte a := by
      intro a ha
      rw [l6 _ (by omega), l5 _ ha]
      rfl
    have m7 : CSt.byte { t4 with bo := t4.bo + 8 } (dlUnion + 7) = h.ac := z7
    have m4 : t5.byte (dlUnion + 4) = h.rbsn := by rw [l5 _ (by omega)]; exact z4
    have m6 : t5.byte (dlUnion + 6) = h.fs := by rw [l5 _ (by omega)]; exact z6
    rw [m7] at g6 c5 g5 c6
    rw [m4, m6] at g6 c6
    have tf : h.hasTfi = decide (h.ac = 1) := by unfold DlHdr.hasTfi; simp [hp]; rfl
    have xt : h.hasExt = decide (h.rbsn = 1 ∧ h.fs = 0) := by unfold DlHdr.hasExt; simp [hp]; rfl
    rw [tf] at r3 r4
    rw [xt] at r4
    refine ⟨t6, e1, e2, e3, e4, q0, ?_, ?_, ?_⟩
    · unfold dlOpt
      rw [show CSt.byte { s4 with bo := 8 } dlUnion = s4.byte dlUnion from rfl, q0, if_pos hp]
      unfold hdrOpt
      rw [f1, CRes.bind_ok, f2, CRes.bind_ok, f3, CRes.bind_ok, f4, CRes.bind_ok, f5, CRes.bind_ok, f6]
    · have : h.bits.length = 16 + (if h.ac = 1 then 8 else 0) + (if h.rbsn = 1 ∧ h.fs = 0 then 8 else 0) := by
        unfold DlHdr.bits
        rw [tf, xt, if_pos hp]
        by_cases a : h.ac = 1 <;> by_cases b : h.rbsn = 1 ∧ h.fs = 0 <;> simp [a, b, natBits_length]
      rw [this]
      exact g6
    · refine ⟨?_, ?_, ?_, ?_, fun _ => ⟨?_, ?_, ?_, ?_⟩, fun hh => ?_, fun hh => ?_⟩
      · show t6.byte dlUnion = _
        rw [low _ (by omega), q0]
      · show t6.byte (dlUnion + 1) = _
        rw [low _ (by omega), q1]
      · show t6.byte (dlUnion + 2) = _
        rw [low _ (by omega), q2]
      · show t6.byte (dlUnion + 3) = _
        rw [low _ (by omega), q3]
      · show t6.byte (dlUnion + 4) = _
        rw [mid _ (by omega), z4]
      · show t6.byte (dlUnion + 5) = _
        rw [mid _ (by omega), z5]
      · show t6.byte (dlUnion + 6) = _
        rw [mid _ (by omega), z6]
      · show t6.byte (dlUnion + 7) = _
        rw [mid _ (by omega), z7]
      · have ha : h.ac = 1 := by simpa [tf] using hh
        rw [if_pos (by simpa using ha)] at r3
        obtain ⟨r3, r33⟩ := Reads.append.1 r3
        obtain ⟨r31, r32⟩ := Reads.append.1 r3
        simp only [List.length_append, natBits_length] at r33 r32
        obtain ⟨y1, y2, y3⟩ := c5 ha
        refine ⟨?_, ?_, ?_⟩
        · show t6.byte (dlUnion + 8) = _
          rw [l6 _ (by omega), y1]
          exact bitsVal_reads r31 ok.pr
        · show t6.byte (dlUnion + 9) = _
          rw [l6 _ (by omega), y2]
          exact bitsVal_reads r32 ok.tfi
        · show t6.byte (dlUnion + 10) = _
          rw [l6 _ (by omega), y3]
          exact bitsVal_reads r33 ok.d
      · have hx : h.rbsn = 1 ∧ h.fs = 0 := by simpa [xt] using hh
        obtain ⟨y1, y2, y3⟩ := c6 hx
        have e : (if decide (h.ac = 1) = true then natBits 2 h.pr ++ natBits 5 h.tfi ++ natBits 1 h.d else []).length =
            if h.ac = 1 then 8 else 0 := by
          by_cases a : h.ac = 1 <;> simp [a, natBits_length]
        rw [e, if_pos (show decide (h.rbsn = 1 ∧ h.fs = 0) = true by simpa using hx)] at r4
        obtain ⟨r4, r43⟩ := Reads.append.1 r4
        obtain ⟨r41, r42⟩ := Reads.append.1 r4
        simp only [List.length_append, natBits_length] at r41 r42 r43
        refine ⟨?_, ?_, ?_⟩
        · show t6.byte (dlUnion + 11) = _
          rw [y1]
          exact bitsVal_reads r41 ok.rbsne
        · show t6.byte (dlUnion + 12) = _
          rw [y2]
          exact bitsVal_reads r42 ok.fse
        · show t6.byte (dlUnion + 13) = _
          rw [y3]
          exact bitsVal_reads r43 ok.spare

/-- Decoding a block with the parts of a downlink message behind a header. -/
theorem decode_dl_all {v : List Bool} {m m0 : Mem} {mt : Nat} {h : DlHdr} {l : List Item} (ok : h.Ok)
    (hv : Reads v 0 h.bits) (hp : dlParts mt m = some l) (hf : ∀ i ∈ l, i.Fits m) (hs : h.bits.length + size l ≤ 184)
    (ht : bitsVal v h.bits.length 6 = mt) (hr : Reads v h.bits.length (code m l)) :
    ∃ s, decodeDownlink .member v m0 = .ok s ∧ (∀ a, carried l a = true → s.mem a = m a % 256) ∧
      (∀ a, carried l a = false → a ≠ 0 → a < dlUnion → s.mem a = m0 a) ∧ (carried l 0 = false → s.mem 0 = mt) ∧
      HdrSays h (hdrOf s.mem) := by
  have hw := dlParts_within (by rw [← ht]; exact bitsVal_lt v 6 _) hp
  have hn : ∀ a, dlUnion ≤ a → carried l a = false := by
    intro a ha
    cases hc : carried l a
    · rfl
    · have := hw a hc
      omega
  obtain ⟨s1, s2, s3, s4, s6, e1, e2, e3, e4, q0, e6, h6, hsay⟩ := hdr_all (m0 := m0) ok hv
  generalize h.bits.length = st at *
  unfold dlParts at hp
  obtain ⟨t, htab, hl⟩ := Option.bind_eq_some_iff.mp hp
  have hmt : mt < 64 := by rw [← ht]; exact bitsVal_lt v 6 st
  have e7 : hdrField v .member 0 6 s6 = .ok { s6 with mem := s6.mem.putLe 0 1 mt, rd := s6.rd + 6 } := by
    unfold hdrField wr Pol.store
    rw [if_pos (by simp), CRes.bind_ok, h6.rd, ht]
  have e8 : ∀ s : CSt, ∀ x, wr .member 0 (dlUnion + 14) 2 0 2 x s = .ok { s with mem := s.mem.putLe (dlUnion + 14) 2 x } := by
    intro s x
    unfold wr Pol.store
    rw [if_pos (by simp)]
    simp
  obtain ⟨s9, e9, h9⟩ := dec_parts (v := v) (s := { mem := (s6.mem.putLe 0 1 mt).putLe (dlUnion + 14) 2 (184 - st), rd := st, bo := st, rem := ((184 - st : Nat) : Int) }) hl hf hr (by show ((size l : Nat) : Int) ≤ ((184 - st : Nat) : Int); omega)
  rw [← dlTable_pad t htab] at e9
  refine ⟨s9, ?_, fun a ha => ?_, fun a ha hz hu => ?_, fun ha => ?_, ?_⟩
  · unfold decodeDownlink
    rw [e1, CRes.bind_ok, e2, CRes.bind_ok, e3, CRes.bind_ok, e4, CRes.bind_ok, q0, if_neg (by have := ok.payload; omega), e6,
      CRes.bind_ok]
    unfold dlBody
    rw [e7, CRes.bind_ok]
    dsimp only
    rw [h6.bo, e8, CRes.bind_ok]
    have : CSt.byte { mem := (s6.mem.putLe 0 1 mt).putLe (dlUnion + 14) 2 (184 - st), rd := (s6.rd + 6), bo := st, rem := s6.rem } 0 = mt := by
      unfold CSt.byte
      dsimp only
      rw [putLe_two, if_neg (by decide), if_neg (by decide), putLe_one', if_pos rfl]; omega
    rw [this, htab]
    exact e9
  · rw [h9]; unfold upd; rw [if_pos ha]
  · rw [h9]; unfold upd; rw [if_neg (by rw [ha]; simp)]
    dsimp only
    rw [putLe_two, if_neg (by omega), if_neg (by omega), putLe_one', if_neg hz, h6.low a hu]
  · rw [h9]; unfold upd; rw [if_neg (by rw [ha]; simp)]
    dsimp only
    rw [putLe_two, if_neg (by decide), if_neg (by decide), putLe_one', if_pos rfl]; omega
  · have e : ∀ a, dlUnion ≤ a → a < dlUnion + 14 → s9.mem a = s6.mem a := by
      intro a ha hb
      rw [h9]; unfold upd; rw [if_neg (by rw [hn a ha]; simp)]
      dsimp only
      rw [putLe_two, if_neg (by omega), if_neg (by omega), putLe_one', if_neg (by have : 0 < dlUnion := by decide
                                                                                  omega)]
    have : hdrOf s9.mem = hdrOf s6.mem := by
      unfold hdrOf
      rw [e _ (by omega) (by omega), e (dlUnion + 1) (by omega) (by omega), e (dlUnion + 2) (by omega) (by omega),
        e (dlUnion + 3) (by omega) (by omega), e (dlUnion + 4) (by omega) (by omega), e (dlUnion + 5) (by omega) (by omega),
        e (dlUnion + 6) (by omega) (by omega), e (dlUnion + 7) (by omega) (by omega), e (dlUnion + 8) (by omega) (by omega),
        e (dlUnion + 9) (by omega) (by omega), e (dlUnion + 10) (by omega) (by omega), e (dlUnion + 11) (by omega) (by omega),
        e (dlUnion + 12) (by omega) (by omega), e (dlUnion + 13) (by omega) (by omega)]
    rw [this]
    exact hsay

/-- The bits of the message type. -/
theorem type_read {v : List Bool} {i a : Nat} {m : Mem} {l : List Item} (hp : [.fld a 1 6 0] <+: l) (hf : ∀ i ∈ l, i.Fits m)
    (hr : Reads v i (code m l)) : bitsVal v i 6 = m a % 256 ∧ m a % 256 < 64 := by
  obtain ⟨r, rfl⟩ := hp
  have h1 := hf (.fld a 1 6 0) (by simp)
  rw [code_append] at hr
  have h2 := (Reads.append.1 hr).1
  have h3 : m a % 256 < 64 := by
    simp [Item.Fits, getLe] at h1
    omega
  refine ⟨bitsVal_reads (x := m a % 256) ?_ h3, h3⟩
  simpa [code, Item.code, getLe] using h2

end Verif.Csn1
