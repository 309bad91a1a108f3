import Verif.Spec.LlcXid

/-!
# C07, C08: LLC XID parameters
-/
namespace Verif.Props

open Verif.Llc Verif.Spec

/-! ## Lemmas -/

theorem xidLegal_valid {t v : Nat} (h : XidLegal t v) :
    t < 16 ∧ t ≠ 11 ∧ xidValid { type := t, val := v } = true ∧ (xidDesc t).varLen = false ∧
      v < 2 ^ 32 := by
  match t with
  | 0 | 1 | 2 | 3 | 4 | 5 | 6 | 7 | 8 | 9 | 10 | 12 | 13 | 14 | 15 =>
    simp [XidLegal] at h
    simp [xidValid, xidDesc, xidDescTbl]
    omega
  | 11 => simp [XidLegal] at h
  | n + 16 => simp [XidLegal] at h

theorem xidValid_legal {t v : Nat} (h : xidValid { type := t, val := v } = true)
    (hv : (xidDesc t).varLen = false) : XidLegal t v := by
  match t with
  | 0 | 1 | 2 | 3 | 4 | 5 | 6 | 7 | 8 | 9 | 10 | 12 | 13 | 14 | 15 =>
    simp [xidValid, xidDesc, xidDescTbl] at h
    simp [XidLegal]
    omega
  | 11 => simp [xidDesc, xidDescTbl] at hv
  | n + 16 => simp [xidValid] at h

theorem varLen_iff {t : Nat} : (xidDesc t).varLen = true ↔ t = 11 := by
  match t with
  | 0 | 1 | 2 | 3 | 4 | 5 | 6 | 7 | 8 | 9 | 10 | 11 | 12 | 13 | 14 | 15 =>
    simp [xidDesc, xidDescTbl]
  | n + 16 => simp [xidDesc, xidDescTbl]

theorem xidLegal_len {t v : Nat} (h : XidLegal t v) :
    ((xidDesc t).len = 0 ∧ v = 0) ∨ ((xidDesc t).len = 1 ∧ v < 256) ∨
    ((xidDesc t).len = 2 ∧ v < 65536) ∨ ((xidDesc t).len = 4 ∧ v < 2 ^ 32) := by
  match t with
  | 0 | 1 | 2 | 3 | 4 | 5 | 6 | 7 | 8 | 9 | 10 | 12 | 13 | 14 | 15 =>
    simp [XidLegal] at h
    simp [xidDesc, xidDescTbl]
    omega
  | 11 => simp [XidLegal] at h
  | n + 16 => simp [XidLegal] at h

theorem hdr_short : ∀ t < 16, ∀ l < 4,
    let h := (UInt8.ofNat (((t &&& 0x1f) <<< 2) ||| l)).toNat
    (h >>> 2) &&& 0x1f = t ∧ h &&& 0x80 = 0 ∧ h &&& 0x03 = l := by decide +kernel

theorem hdr_long : ∀ t < 16, ∀ l < 256,
    let h := (UInt8.ofNat ((((t &&& 0x1f) <<< 2) ||| (1 <<< 7)) ||| ((l >>> 6) &&& 0x03))).toNat
    let h2 := (UInt8.ofNat ((l <<< 2) &&& 0xff)).toNat
    (h >>> 2) &&& 0x1f = t ∧ h &&& 0x80 ≠ 0 ∧ (((h &&& 0x07) <<< 6) % 256) ||| (h2 >>> 2) = l := by
  decide +kernel

theorem rd_pre (pre l : Octets) (i : Nat) : rd (pre ++ l) (pre.length + i) = rd l i := by
  unfold rd; rw [List.getElem?_append_right (by omega)]; simp

theorem rdN_pre (pre l : Octets) (i n : Nat) : rdN (pre ++ l) (pre.length + i) n = rdN l i n := by
  unfold rdN
  simp only [List.length_append]
  have : pre.length + i + n ≤ pre.length + l.length ↔ i + n ≤ l.length := by omega
  simp only [this]
  split
  · rw [List.drop_append, List.drop_of_length_le (by omega)]; simp
  · rfl

theorem fixed_roundtrip {t v len : Nat} {o : Octets} (h : XidLegal t v) (hl : (xidDesc t).len = len)
    (hne : len ≠ 0) (ho : xidFixedOctets len v = .ok o) (rest : Octets) :
    o.length = len ∧ xidFixedVal (o ++ rest) 0 len = .ok v := by
  rcases xidLegal_len h with ⟨h1, h2⟩ | ⟨h1, h2⟩ | ⟨h1, h2⟩ | ⟨h1, h2⟩ <;> rw [hl] at h1 <;> subst h1
  · exact absurd rfl hne
  · simp only [xidFixedOctets] at ho; injection ho with ho; subst ho
    simp [xidFixedVal, rd, UInt8.toNat_ofNat']; omega
  · simp only [xidFixedOctets] at ho; injection ho with ho; subst ho
    simp [xidFixedVal, rd, UInt8.toNat_ofNat', Nat.shiftRight_eq_div_pow]; omega
  · simp only [xidFixedOctets] at ho; injection ho with ho; subst ho
    simp [xidFixedVal, rd, UInt8.toNat_ofNat', Nat.shiftRight_eq_div_pow]; omega

theorem fixedVal_pre (pre l : Octets) (i len : Nat) :
    xidFixedVal (pre ++ l) (pre.length + i) len = xidFixedVal l i len := by
  unfold xidFixedVal
  split <;> simp only [Nat.add_assoc, rd_pre]

theorem decValue_pre (pre l : Octets) (t i len : Nat) :
    xidDecValue (pre ++ l) t (pre.length + i) len = xidDecValue l t i len := by
  unfold xidDecValue; rw [rdN_pre, fixedVal_pre]

theorem decHdr_pre (pre l : Octets) (i dl : Nat) :
    xidDecHdr (pre ++ l) (pre.length + i) dl = xidDecHdr l i dl := by
  unfold xidDecHdr
  simp only [Nat.add_assoc, rd_pre]

theorem wf_valid {f : XidField} (h : XidWellFormed f) : f.type < 16 ∧ xidValid f = true := by
  rcases h with ⟨h1, h2, h3⟩ | ⟨h1, h2⟩
  · refine ⟨by omega, ?_⟩
    have : (xidDesc f.type).varLen = true := varLen_iff.2 h1
    unfold xidValid
    rw [if_neg (by omega), if_pos this]
  · obtain ⟨a, _, b, _, _⟩ := xidLegal_valid h1
    refine ⟨a, ?_⟩
    cases f; simp only at h2; subst h2; exact b

theorem wf_len {f : XidField} (h : XidWellFormed f) : xidFieldLen f < 256 := by
  unfold xidFieldLen
  rcases h with ⟨h1, h2, h3⟩ | ⟨h1, h2⟩
  · rw [if_pos (varLen_iff.2 h1)]; omega
  · obtain ⟨_, _, _, b, _⟩ := xidLegal_valid h1
    rw [b]
    rcases xidLegal_len h1 with h | h | h | h <;> simp [h.1]

theorem encValue_roundtrip {cap off : Nat} {f : XidField} {v : Octets} (h : XidWellFormed f)
    (hne : xidFieldLen f ≠ 0) (hv : xidEncValue cap off (xidFieldLen f) f = .ok v) (rest : Octets) :
    off + v.length ≤ cap ∧ v.length = xidFieldLen f ∧
      xidDecValue (v ++ rest) f.type 0 (xidFieldLen f) = .ok f := by
  unfold xidEncValue at hv
  split at hv
  · cases hv
  rename_i hcap
  rcases h with ⟨h1, h2, h3⟩ | ⟨h1, h2⟩
  · have hvl : (xidDesc f.type).varLen = true := varLen_iff.2 h1
    have hl : xidFieldLen f = f.var.length := by unfold xidFieldLen; rw [if_pos hvl]
    rw [if_pos hvl] at hv
    injection hv with hv; subst hv
    refine ⟨by omega, hl.symm, ?_⟩
    unfold xidDecValue
    rw [if_pos hvl, hl, rdN_of_le (by simp)]
    cases f; simp only at h2; subst h2
    simp [Res.bind]
  · obtain ⟨_, _, b, hvl, _⟩ := xidLegal_valid h1
    have hl : xidFieldLen f = (xidDesc f.type).len := by unfold xidFieldLen; rw [hvl]; rfl
    rw [hvl] at hv
    simp only [Bool.false_eq_true, if_false] at hv
    obtain ⟨k1, k2⟩ := fixed_roundtrip h1 hl.symm hne hv rest
    refine ⟨by omega, k1, ?_⟩
    unfold xidDecValue
    rw [hvl, k2]
    cases f; simp only at h2; subst h2
    simp [Res.bind, b]

theorem encField_roundtrip {cap off : Nat} {f : XidField} {o : Octets} (h : XidWellFormed f)
    (ho : xidEncField cap off f = .ok o) (rest : Octets) :
    off + o.length ≤ cap ∧ ∃ hl, o.length = hl + xidFieldLen f ∧ 1 ≤ hl ∧
      xidDecHdr (o ++ rest) 0 (o.length + rest.length) = .ok (f.type, xidFieldLen f, hl) ∧
      xidDecValue (o ++ rest) f.type hl (xidFieldLen f) = .ok f := by
  obtain ⟨ht, hv⟩ := wf_valid h
  have hlen := wf_len h
  unfold xidEncField at ho
  rw [hv] at ho
  simp only [Bool.not_true, Bool.false_eq_true, if_false] at ho
  split at ho
  · cases ho
  rename_i hoff
  by_cases h0 : xidFieldLen f = 0
  · rw [if_pos h0] at ho
    injection ho with ho; subst ho
    obtain ⟨a, b, c⟩ := hdr_short f.type ht 0 (by omega)
    simp only [Nat.or_zero] at a b c
    refine ⟨by simp; omega, 1, by simp [h0], by omega, ?_, ?_⟩
    · unfold xidDecHdr
      simp only [List.cons_append, List.nil_append, rd, List.getElem?_cons_zero, Res.bind_ok]
      rw [a, if_neg (by omega), if_neg (fun hh => hh b), c, h0]
    · rw [h0]
      rcases h with ⟨h1, h2, h3⟩ | ⟨h1, h2⟩
      · have hvl : (xidDesc f.type).varLen = true := varLen_iff.2 h1
        have : f.var = [] := by
          unfold xidFieldLen at h0; rw [if_pos hvl] at h0; exact List.length_eq_zero_iff.1 h0
        unfold xidDecValue
        rw [if_pos hvl, rdN_of_le (by simp)]
        cases f; simp only at h2 this; subst h2; subst this
        simp [Res.bind]
      · obtain ⟨_, _, bb, hvl, _⟩ := xidLegal_valid h1
        have hd : (xidDesc f.type).len = 0 := by
          unfold xidFieldLen at h0; rw [hvl] at h0; exact h0
        have hv0 : f.val = 0 := by
          rcases xidLegal_len h1 with h | h | h | h
          · exact h.2
          all_goals (rw [hd] at h; omega)
        unfold xidDecValue
        rw [hvl]
        cases f; simp only at h2 hv0 bb; subst h2; subst hv0
        simp [xidFixedVal, Res.bind, bb]
  · rw [if_neg h0] at ho
    by_cases h4 : xidFieldLen f < 4
    · rw [if_pos h4] at ho
      cases hev : xidEncValue cap (off + 1) (xidFieldLen f) f with
      | err e => rw [hev] at ho; cases ho
      | ub u => rw [hev] at ho; cases ho
      | ok v =>
        rw [hev] at ho
        simp only [Res.bind] at ho
        injection ho with ho; subst ho
        obtain ⟨k0, k1, k2⟩ := encValue_roundtrip h h0 hev rest
        obtain ⟨a, b, c⟩ := hdr_short f.type ht _ h4
        refine ⟨by simp; omega, 1, by simp [k1]; omega, by omega, ?_, ?_⟩
        · unfold xidDecHdr
          simp only [List.cons_append, rd, List.getElem?_cons_zero, Res.bind_ok]
          rw [a, if_neg (by omega), if_neg (fun hh => hh b), c]
        · have := decValue_pre [UInt8.ofNat ((f.type &&& 0x1f) <<< 2 ||| xidFieldLen f)] (v ++ rest)
            f.type 0 (xidFieldLen f)
          rw [k2] at this
          exact this
    · rw [if_neg h4] at ho
      split at ho
      · cases ho
      cases hev : xidEncValue cap (off + 2) (xidFieldLen f) f with
      | err e => rw [hev] at ho; cases ho
      | ub u => rw [hev] at ho; cases ho
      | ok v =>
        rw [hev] at ho
        simp only [Res.bind] at ho
        injection ho with ho; subst ho
        obtain ⟨k0, k1, k2⟩ := encValue_roundtrip h h0 hev rest
        obtain ⟨a, b, c⟩ := hdr_long f.type ht _ hlen
        refine ⟨by simp; omega, 2, by simp [k1]; omega, by omega, ?_, ?_⟩
        · unfold xidDecHdr
          simp only [List.cons_append, rd, List.getElem?_cons_zero, Res.bind_ok,
            List.getElem?_cons_succ, List.length_cons]
          rw [a, if_neg (by omega), if_pos b, if_neg (by omega), c]
        · have := decValue_pre
            [UInt8.ofNat (((f.type &&& 0x1f) <<< 2 ||| 1 <<< 7) ||| ((xidFieldLen f) >>> 6) &&& 0x03),
             UInt8.ofNat (((xidFieldLen f) <<< 2) &&& 0xff)] (v ++ rest) f.type 0 (xidFieldLen f)
          rw [k2] at this
          exact this

theorem encLoop_roundtrip (cap max : Nat) : ∀ (fs : List XidField) (off : Nat) (w pre : Octets)
    (fuel n : Nat), (∀ f ∈ fs, XidWellFormed f) → xidEncLoop cap off fs = .ok w →
    (fs ≠ [] → off + w.length ≤ cap) ∧
    (n + fs.length ≤ max → w.length ≤ fuel →
      xidDecLoop (pre ++ w) max fuel pre.length w.length n = .ok fs) := by
  intro fs
  induction fs with
  | nil =>
    intro off w pre fuel n _ hw
    simp only [xidEncLoop] at hw
    injection hw with hw; subst hw
    refine ⟨by simp, fun _ _ => ?_⟩
    cases fuel <;> simp [xidDecLoop]
  | cons f fs ih =>
    intro off w pre fuel n hwf hw
    simp only [xidEncLoop] at hw
    cases ho : xidEncField cap off f with
    | err e => rw [ho] at hw; cases hw
    | ub u => rw [ho] at hw; cases hw
    | ok o =>
      rw [ho] at hw
      simp only [Res.bind] at hw
      cases hr : xidEncLoop cap (off + o.length) fs with
      | err e => rw [hr] at hw; cases hw
      | ub u => rw [hr] at hw; cases hw
      | ok rest =>
        rw [hr] at hw
        injection hw with hw; subst hw
        obtain ⟨k0, hl, k1, k2, k3, k4⟩ := encField_roundtrip (hwf f (by simp)) ho rest
        have hwf' : ∀ f ∈ fs, XidWellFormed f := fun g hg => hwf g (by simp [hg])
        refine ⟨fun _ => ?_, fun hn hfuel => ?_⟩
        · cases fs with
          | nil =>
            simp only [xidEncLoop] at hr
            injection hr with hr; subst hr
            simpa using k0
          | cons g gs =>
            have := (ih (off + o.length) rest pre 0 0 hwf' hr).1 (by simp)
            simp; omega
        · simp only [List.length_append] at hfuel ⊢
          obtain ⟨fuel', rfl⟩ : ∃ k, fuel = k + 1 := ⟨fuel - 1, by omega⟩
          obtain ⟨m, hm⟩ : ∃ m, o.length + rest.length = m + 1 := ⟨o.length + rest.length - 1, by omega⟩
          rw [hm, xidDecLoop, if_neg (by simp at hn; omega), ← hm]
          have e1 := decHdr_pre pre (o ++ rest) 0 (o.length + rest.length)
          rw [k3, Nat.add_zero] at e1
          rw [e1]
          simp only [Res.bind]
          rw [if_neg (by omega), decValue_pre, k4]
          simp only [Res.bind]
          have := (ih (off + o.length) rest (pre ++ o) fuel' (n + 1) hwf' hr).2
            (by simp at hn; omega) (by omega)
          rw [List.append_assoc, List.length_append] at this
          have e2 : pre.length + hl + xidFieldLen f = pre.length + o.length := by omega
          have e3 : o.length + rest.length - hl - xidFieldLen f = rest.length := by omega
          rw [e2, e3, this]

theorem safe_bind {α β : Type} {r : Res α} {f : α → Res β} (h1 : r.Safe)
    (h2 : ∀ a, r = .ok a → (f a).Safe) : (r.bind f).Safe := by
  cases r with
  | ok a => exact h2 a rfl
  | err e => simp [Res.bind]
  | ub u => exact absurd rfl (h1 u)

theorem bind_ok_inv {α β : Type} {r : Res α} {f : α → Res β} {b : β} (h : r.bind f = .ok b) :
    ∃ a, r = .ok a ∧ f a = .ok b := by
  cases r with
  | ok a => exact ⟨a, rfl, h⟩
  | err e => cases h
  | ub u => cases h

theorem decHdr_safe {d : Octets} {ptr dl : Nat} (h : ptr + dl = d.length) (hdl : 0 < dl) :
    (xidDecHdr d ptr dl).Safe ∧ ∀ t l k, xidDecHdr d ptr dl = .ok (t, l, k) →
      t < 16 ∧ l < 256 ∧ 1 ≤ k ∧ k ≤ dl := by
  unfold xidDecHdr
  rw [rd_of_lt (by omega)]
  simp only [Res.bind_ok]
  split
  · exact ⟨by simp, fun _ _ _ h => by cases h⟩
  · split
    · split
      · exact ⟨by simp, fun _ _ _ h => by cases h⟩
      · rw [rd_of_lt (by omega)]
        simp only [Res.bind_ok]
        refine ⟨by simp, fun t l k hh => ?_⟩
        injection hh with hh
        simp only [Prod.mk.injEq] at hh
        obtain ⟨h1, h2, h3⟩ := hh
        refine ⟨by omega, ?_, by omega, by omega⟩
        rw [← h2]
        have := (d[ptr + 1]'(by omega)).toNat_lt
        refine Nat.or_lt_two_pow (n := 8) (Nat.mod_lt _ (by omega)) ?_
        rw [Nat.shiftRight_eq_div_pow]; omega
    · refine ⟨by simp, fun t l k hh => ?_⟩
      injection hh with hh
      simp only [Prod.mk.injEq] at hh
      obtain ⟨h1, h2, h3⟩ := hh
      have : (d[ptr]'(by omega)).toNat &&& 0x03 ≤ 3 := Nat.and_le_right
      omega

theorem fixedVal_safe {d : Octets} {ptr len : Nat} (h : ptr + len ≤ d.length) :
    (xidFixedVal d ptr len).Safe := by
  unfold xidFixedVal
  split
  · simp
  · rw [rd_of_lt (by omega)]; simp
  · rw [rd_of_lt (by omega), rd_of_lt (by omega)]; simp
  · rw [rd_of_lt (by omega), rd_of_lt (by omega), rd_of_lt (by omega), rd_of_lt (by omega)]; simp
  · simp

theorem decValue_safe {d : Octets} {t ptr len : Nat} (h : ptr + len ≤ d.length) :
    (xidDecValue d t ptr len).Safe := by
  unfold xidDecValue
  split
  · rw [rdN_of_le h]; simp [Res.bind]
  · refine safe_bind (fixedVal_safe h) (fun a _ => ?_)
    split <;> simp

theorem decValue_wf {d : Octets} {t ptr len : Nat} {f : XidField}
    (hlen : len < 256) (hf : xidDecValue d t ptr len = .ok f) : XidWellFormed f := by
  unfold xidDecValue at hf
  split at hf
  · rename_i hv
    obtain ⟨v, h1, h2⟩ := bind_ok_inv hf
    injection h2 with h2; subst h2
    unfold rdN at h1
    split at h1
    · injection h1 with h1; subst h1
      left
      exact ⟨varLen_iff.1 hv, rfl, by simp; omega⟩
    · cases h1
  · rename_i hv
    obtain ⟨v, h1, h2⟩ := bind_ok_inv hf
    split at h2
    · rename_i hvalid
      injection h2 with h2; subst h2
      right
      exact ⟨xidValid_legal hvalid (by simpa using hv), rfl⟩
    · cases h2

theorem decLoop_post (d : Octets) (max : Nat) : ∀ (fuel ptr dl n : Nat), ptr + dl = d.length →
    dl ≤ fuel →
    (xidDecLoop d max fuel ptr dl n).Safe ∧ ∀ fs, xidDecLoop d max fuel ptr dl n = .ok fs →
      (fs ≠ [] → n + fs.length ≤ max) ∧ ∀ f ∈ fs, XidWellFormed f := by
  intro fuel
  induction fuel with
  | zero =>
    intro ptr dl n h hf
    have : dl = 0 := by omega
    subst this
    simp [xidDecLoop]
  | succ fuel ih =>
    intro ptr dl n h hf
    cases dl with
    | zero => simp [xidDecLoop]
    | succ dl =>
      rw [xidDecLoop]
      split
      · exact ⟨by simp, fun _ h => by cases h⟩
      rename_i hmax
      obtain ⟨s1, s2⟩ := decHdr_safe h (by omega)
      constructor
      · refine safe_bind s1 ?_
        rintro ⟨t, l, k⟩ hk
        obtain ⟨a, b, c, e⟩ := s2 t l k hk
        simp only
        split
        · simp
        · refine safe_bind (decValue_safe (by omega)) (fun f _ => ?_)
          refine safe_bind (ih _ _ _ (by omega) (by omega)).1 (fun _ _ => by simp)
      · intro fs hfs
        obtain ⟨⟨t, l, k⟩, hk, hfs⟩ := bind_ok_inv hfs
        obtain ⟨a, b, c, e⟩ := s2 t l k hk
        simp only at hfs
        split at hfs
        · cases hfs
        · obtain ⟨f, hf1, hfs⟩ := bind_ok_inv hfs
          obtain ⟨rest, hr, hfs⟩ := bind_ok_inv hfs
          injection hfs with hfs; subst hfs
          obtain ⟨i1, i2⟩ := (ih _ _ _ (by omega) (by omega)).2 rest hr
          refine ⟨fun _ => ?_, ?_⟩
          · cases rest with
            | nil => simp; omega
            | cons g gs => have := i1 (by simp); simp at this ⊢; omega
          · intro g hg
            rcases List.mem_cons.1 hg with rfl | hg
            · exact decValue_wf b hf1
            · exact i2 g hg

/-! ## Properties -/

/-- Specification: number of octets a parameter takes on the wire: one or two header octets and the
value. -/
def xidWireSize (f : XidField) : Nat :=
  let valueLen := match f.type with
    | 0 | 4 | 9 | 10 | 14 => 1
    | 3 | 5 | 6 | 7 | 8 => 2
    | 1 | 2 | 13 | 15 => 4
    | 11 => f.var.length
    | _ => 0
  (if valueLen < 4 then 1 else 2) + valueLen

theorem wireSize_eq {f : XidField} (h : XidWellFormed f) :
    xidWireSize f = (if xidFieldLen f < 4 then 1 else 2) + xidFieldLen f := by
  rcases h with ⟨h1, h2, h3⟩ | ⟨h1, h2⟩
  · simp [xidWireSize, xidFieldLen, h1, xidDesc, xidDescTbl]
  · obtain ⟨ht, hn, _, hvl, _⟩ := xidLegal_valid h1
    obtain ⟨t, v, var⟩ := f
    simp only at *
    match t with
    | 0 | 1 | 2 | 3 | 4 | 5 | 6 | 7 | 8 | 9 | 10 | 12 | 13 | 14 | 15 =>
      simp [xidWireSize, xidFieldLen, xidDesc, xidDescTbl]
    | 11 => exact absurd rfl hn
    | n + 16 => omega

theorem encField_succeeds {cap off : Nat} {f : XidField} (h : XidWellFormed f)
    (hc : off + xidWireSize f ≤ cap) :
    ∃ o, xidEncField cap off f = .ok o ∧ o.length = xidWireSize f := by
  obtain ⟨ht, hv⟩ := wf_valid h
  have hw := wireSize_eq h
  have hval : ∀ off', off' + xidFieldLen f ≤ cap → xidFieldLen f ≠ 0 →
      ∃ v, xidEncValue cap off' (xidFieldLen f) f = .ok v ∧ v.length = xidFieldLen f := by
    intro off' h1 h2
    unfold xidEncValue
    rw [if_neg (by omega)]
    rcases h with ⟨k1, k2, k3⟩ | ⟨k1, k2⟩
    · have : (xidDesc f.type).varLen = true := varLen_iff.2 k1
      rw [if_pos this]
      exact ⟨_, rfl, by unfold xidFieldLen; rw [if_pos this]⟩
    · obtain ⟨_, _, b, hvl, _⟩ := xidLegal_valid k1
      have hl : xidFieldLen f = (xidDesc f.type).len := by unfold xidFieldLen; rw [hvl]; rfl
      rw [hvl]
      simp only [Bool.false_eq_true, if_false]
      rcases xidLegal_len k1 with k | k | k | k <;> rw [hl, k.1]
      · rw [hl, k.1] at h2; exact absurd rfl h2
      · exact ⟨_, rfl, rfl⟩
      · exact ⟨_, rfl, rfl⟩
      · exact ⟨_, rfl, rfl⟩
  unfold xidEncField
  rw [hv]
  simp only [Bool.not_true, Bool.false_eq_true, if_false]
  rw [if_neg (by split at hw <;> omega)]
  by_cases h0 : xidFieldLen f = 0
  · rw [if_pos h0]; exact ⟨_, rfl, by simp [hw, h0]⟩
  · rw [if_neg h0]
    by_cases h4 : xidFieldLen f < 4
    · rw [if_pos h4] at hw
      rw [if_pos h4]
      obtain ⟨v, e1, e2⟩ := hval (off + 1) (by omega) h0
      rw [e1]; exact ⟨_, rfl, by simp; omega⟩
    · rw [if_neg h4] at hw
      rw [if_neg h4, if_neg (by omega)]
      obtain ⟨v, e1, e2⟩ := hval (off + 2) (by omega) h0
      rw [e1]; exact ⟨_, rfl, by simp; omega⟩

theorem encLoop_succeeds (cap : Nat) : ∀ (fs : List XidField) (off : Nat),
    (∀ f ∈ fs, XidWellFormed f) → off + (fs.map xidWireSize).sum ≤ cap →
    ∃ w, xidEncLoop cap off fs = .ok w ∧ w.length = (fs.map xidWireSize).sum := by
  intro fs
  induction fs with
  | nil => intro off _ _; exact ⟨[], rfl, rfl⟩
  | cons f fs ih =>
    intro off hwf hc
    simp only [List.map_cons, List.sum_cons] at hc
    obtain ⟨o, h1, h2⟩ := encField_succeeds (hwf f (by simp)) (cap := cap) (off := off) (by omega)
    obtain ⟨w, h3, h4⟩ := ih (off + o.length) (fun g hg => hwf g (by simp [hg])) (by omega)
    refine ⟨o ++ w, ?_, by simp [h2, h4]⟩
    simp only [xidEncLoop, h1, h3, Res.bind]

/-- **C07.** A list of well-formed XID parameters that fits the buffer is encoded, the octets written
stay inside the buffer, and decoding them (into an array of at least that many fields) gives back
exactly the list. -/
theorem c07_xid_roundtrip (cap max : Nat) (fs : List XidField)
    (hwf : ∀ f ∈ fs, XidWellFormed f) (hmax : fs.length ≤ max)
    (hcap : (fs.map xidWireSize).sum ≤ cap) :
    ∃ w, xidEncode cap fs = .ok w ∧ w.length ≤ cap ∧ xidDecode max w = .ok fs := by
  obtain ⟨w, h1, h2⟩ := encLoop_succeeds cap fs 0 hwf (by omega)
  have := (encLoop_roundtrip cap max fs 0 w [] w.length 0 hwf h1).2 (by omega) (Nat.le_refl _)
  exact ⟨w, h1, by omega, this⟩

/-- **C07**, second half: whatever the parameters and the buffer size, the encoder never writes past
the buffer and never aborts. -/
theorem c07_xid_encode_in_bounds (cap : Nat) (fs : List XidField) :
    (xidEncode cap fs).Safe ∧ ∀ w, xidEncode cap fs = .ok w → w.length ≤ cap := by
  have hfield : ∀ off f, (xidEncField cap off f).Safe ∧
      ∀ o, xidEncField cap off f = .ok o → off + o.length ≤ cap := by
    intro off f
    unfold xidEncField
    cases hv : xidValid f with
    | false => simp
    | true =>
      simp only [Bool.not_true, Bool.false_eq_true, if_false]
      split
      · simp
      rename_i hoff
      have ht : f.type < 16 := by
        refine Nat.lt_of_not_le (fun hc => ?_)
        unfold xidValid at hv; rw [if_pos (by omega)] at hv; cases hv
      have hval : ∀ off', xidFieldLen f ≠ 0 → (xidEncValue cap off' (xidFieldLen f) f).Safe ∧
          ∀ v, xidEncValue cap off' (xidFieldLen f) f = .ok v → off' + v.length ≤ cap := by
        intro off' hne
        unfold xidEncValue
        split
        · simp
        · split
          · rename_i hvl
            refine ⟨by simp, fun v hv => ?_⟩
            injection hv with hv; subst hv
            have : xidFieldLen f = f.var.length := by unfold xidFieldLen; rw [if_pos hvl]
            omega
          · rename_i hvl
            have hl : xidFieldLen f = (xidDesc f.type).len := by
              unfold xidFieldLen; rw [if_neg hvl]
            have hcases : (xidDesc f.type).len = 0 ∨ (xidDesc f.type).len = 1 ∨
                (xidDesc f.type).len = 2 ∨ (xidDesc f.type).len = 4 := by
              have : ∀ t < 16, (xidDesc t).len = 0 ∨ (xidDesc t).len = 1 ∨
                (xidDesc t).len = 2 ∨ (xidDesc t).len = 4 := by decide +kernel
              exact this _ ht
            rw [hl] at hne ⊢
            rcases hcases with h | h | h | h <;> rw [h] at hne ⊢ <;>
              simp only [xidFixedOctets] <;> simp_all
            all_goals omega
      split
      · refine ⟨by simp, fun o ho => ?_⟩
        injection ho with ho; subst ho; simp; omega
      rename_i h0
      split
      · refine ⟨safe_bind (hval _ h0).1 (fun _ _ => by simp), fun o ho => ?_⟩
        obtain ⟨v, h1, h2⟩ := bind_ok_inv ho
        injection h2 with h2; subst h2
        have := (hval _ h0).2 v h1
        simp; omega
      · split
        · simp
        · refine ⟨safe_bind (hval _ h0).1 (fun _ _ => by simp), fun o ho => ?_⟩
          obtain ⟨v, h1, h2⟩ := bind_ok_inv ho
          injection h2 with h2; subst h2
          have := (hval _ h0).2 v h1
          simp; omega
  have hloop : ∀ (fs : List XidField) (off : Nat), off ≤ cap → (xidEncLoop cap off fs).Safe ∧
      ∀ w, xidEncLoop cap off fs = .ok w → off + w.length ≤ cap := by
    intro fs
    induction fs with
    | nil =>
      intro off ho
      refine ⟨by simp [xidEncLoop], fun w hw => ?_⟩
      simp only [xidEncLoop] at hw; injection hw with hw; subst hw; simpa using ho
    | cons f fs ih =>
      intro off ho
      simp only [xidEncLoop]
      constructor
      · refine safe_bind (hfield off f).1 (fun o h1 => ?_)
        exact safe_bind (ih _ ((hfield off f).2 o h1)).1 (fun _ _ => by simp)
      · intro w hw
        obtain ⟨o, h1, hw⟩ := bind_ok_inv hw
        obtain ⟨r, h2, hw⟩ := bind_ok_inv hw
        injection hw with hw; subst hw
        have := (ih _ ((hfield off f).2 o h1)).2 r h2
        simp; omega
  exact ⟨(hloop fs 0 (by omega)).1, fun w hw => by have := (hloop fs 0 (by omega)).2 w hw; omega⟩

/-- Non-vacuity of C07: an SNDCP negotiation as the library itself sends it, with a long (two-octet
header) Layer-3 parameter. -/
example : xidDecode 16 [0x01, 0x00, 0x16, 0x01, 0xf4, 0x1a, 0x05, 0xdf, 0xac, 0x10, 1, 2, 3, 4] =
    .ok [{ type := 0, val := 0 }, { type := 5, val := 500 }, { type := 6, val := 1503 },
         { type := 11, var := [1, 2, 3, 4] }] := by decide +kernel

example : ∀ f ∈ ([{ type := 0, val := 0 }, { type := 5, val := 500 }, { type := 6, val := 1503 },
    { type := 11, var := [1, 2, 3, 4] }] : List XidField), XidWellFormed f := by
  simp [XidWellFormed, XidLegal]

/-- **C08.** For any octet string and field limit the decoder reads nothing outside the input, and if
it succeeds it yields at most the allowed number of parameters, all of them well-formed in the sense
of TS 44.064 Table 6. -/
theorem c08_xid_decode_valid (max : Nat) (d : Octets) :
    (xidDecode max d).Safe ∧ ∀ fs, xidDecode max d = .ok fs →
      fs.length ≤ max ∧ ∀ f ∈ fs, XidWellFormed f := by
  obtain ⟨h1, h2⟩ := decLoop_post d max d.length 0 d.length 0 (by omega) (Nat.le_refl _)
  refine ⟨h1, fun fs hfs => ?_⟩
  obtain ⟨h3, h4⟩ := h2 fs hfs
  refine ⟨?_, h4⟩
  cases fs with
  | nil => simp
  | cons g gs => have := h3 (by simp); omega

/-- Non-vacuity of C08: an out-of-range N201-U (type 5, value 100) is rejected, a legal one accepted. -/
example : xidDecode 16 [0x16, 0, 100] = .err .einval ∧
    xidDecode 16 [0x16, 0, 140] = .ok [{ type := 5, val := 140 }] := by decide +kernel

end Verif.Props
