import Verif.Basic
/-!
# Information elements

`tlv_parse` and `tlv_parse_one` of libosmocore (src/gsm/tlv_parser.c), which the SM and GMM decoders
of /repo call (include/osmocom/gprs/sm/sm_pdu.h:18-20, include/osmocom/gprs/gmm/gmm_pdu.h).
libosmocore is not part of /repo: this file states the behaviour that is assumed of it, for the types
of elements that the tables in /repo use.
-/
namespace Verif.Gsm

/-- `enum tlv_type`, the types used by /repo. -/
inductive IeType where
  /-- no entry in the table -/
  | unknown
  /-- `TLV_TYPE_FIXED` -/
  | fixed (n : Nat)
  /-- `TLV_TYPE_TV` -/
  | tv
  /-- `TLV_TYPE_TLV` -/
  | tlv
  /-- `TLV_TYPE_SINGLE_TV` -/
  | singleTv
  deriving DecidableEq, Repr

/-- A parsed element: its tag, where its value is in the buffer, and how long the value is. -/
structure Ie where
  tag : Nat
  ofs : Nat
  len : Nat
  deriving DecidableEq, Repr

/-- `tlv_parse_one` at a position inside the buffer: the element and the number of octets it takes. -/
def ieParseOne (d : Nat → IeType) (b : Octets) (pos : Nat) : Res (Ie × Nat) := do
  let t ← rd b pos
  if d (t / 16 * 16) = .singleTv then .ok (⟨t / 16 * 16, pos, 1⟩, 1)
  else match d t with
    | .fixed n => if b.length < pos + 1 + n then .err .einval else .ok (⟨t, pos + 1, n⟩, n + 1)
    | .tv => if b.length < pos + 2 then .err .einval else .ok (⟨t, pos + 1, 1⟩, 2)
    | .tlv =>
      if b.length < pos + 2 then .err .einval
      else do
        let l ← rd b (pos + 1)
        if b.length < pos + 2 + l then .err .einval else .ok (⟨t, pos + 2, l⟩, l + 2)
    | .unknown => .err .einval
    | .singleTv => .err .einval

/-- The loop of `tlv_parse`; every element takes at least one octet, so the fuel `b.length` of
`ieParse` never runs out. -/
def ieParseFrom (d : Nat → IeType) (b : Octets) : Nat → Nat → Res (List Ie)
  | 0, _ => .ok []
  | fuel + 1, pos =>
    if b.length ≤ pos then .ok []
    else
      match ieParseOne d b pos with
      | .err e => .err e
      | .ub f => .ub f
      | .ok (ie, n) =>
        match ieParseFrom d b fuel (pos + n) with
        | .err e => .err e
        | .ub f => .ub f
        | .ok l => .ok (ie :: l)

/-- `tlv_parse(dec, def, buf + pos, len - pos, 0, 0)`. -/
def ieParse (d : Nat → IeType) (b : Octets) (pos : Nat) : Res (List Ie) := ieParseFrom d b b.length pos

/-- `TLVP_PRESENT`, `TLVP_VAL` and `TLVP_LEN`: the first element with the tag. -/
def ieGet (l : List Ie) (tag : Nat) : Option Ie := l.find? (fun e => e.tag = tag)

/-- `TLVP_PRES_LEN(tp, tag, min_len)`: present with at least that length. -/
def ieGetLen (l : List Ie) (tag minLen : Nat) : Option Ie :=
  match ieGet l tag with
  | some e => if e.len ≥ minLen then some e else none
  | none => none

theorem ieParseOne_safe (d : Nat → IeType) (b : Octets) (pos : Nat) (h : pos < b.length) :
    (ieParseOne d b pos).Safe := by
  unfold ieParseOne
  rw [rd_of_lt h]
  simp only [Res.bind_ok]
  split
  · simp
  · split
    · split <;> simp
    · split <;> simp
    · split
      · simp
      · rename_i h2
        rw [rd_of_lt (by omega)]
        simp only [Res.bind_ok]
        split <;> simp
    · simp
    · simp

/-- An element lies inside the buffer. -/
def Ie.within (e : Ie) (b : Octets) : Prop := e.ofs + e.len ≤ b.length

theorem ieParseOne_within {d : Nat → IeType} {b : Octets} {pos n : Nat} {e : Ie}
    (h : pos < b.length) (hp : ieParseOne d b pos = .ok (e, n)) :
    e.within b ∧ pos ≤ e.ofs ∧ 1 ≤ n ∧ e.ofs + e.len = pos + n := by
  unfold ieParseOne at hp
  rw [rd_of_lt h] at hp
  simp only [Res.bind_ok] at hp
  unfold Ie.within
  split at hp
  · cases hp; simp; omega
  · split at hp
    · split at hp
      · cases hp
      · cases hp; simp; omega
    · split at hp
      · cases hp
      · cases hp; simp; omega
    · split at hp
      · cases hp
      · rename_i h2
        rw [rd_of_lt (by omega)] at hp
        simp only [Res.bind_ok] at hp
        split at hp
        · cases hp
        · cases hp; simp; omega
    · cases hp
    · cases hp

theorem ieParseFrom_safe (d : Nat → IeType) (b : Octets) :
    ∀ fuel pos, (ieParseFrom d b fuel pos).Safe := by
  intro fuel
  induction fuel with
  | zero => intro pos; simp [ieParseFrom]
  | succ k ih =>
    intro pos
    unfold ieParseFrom
    split
    · simp
    · rename_i h
      have hs := ieParseOne_safe d b pos (by omega)
      cases hp : ieParseOne d b pos with
      | err e => simp
      | ub f => rw [hp] at hs; exact absurd hs (Res.not_safe_ub f)
      | ok r =>
        obtain ⟨e, n⟩ := r
        have hk := ih (pos + n)
        cases hq : ieParseFrom d b k (pos + n) with
        | err e => simp [hq]
        | ub f => rw [hq] at hk; exact absurd hk (Res.not_safe_ub f)
        | ok l => simp [hq]

/-- Parsing elements never reads outside the buffer. -/
theorem ieParse_safe (d : Nat → IeType) (b : Octets) (pos : Nat) : (ieParse d b pos).Safe :=
  ieParseFrom_safe d b _ pos

theorem ieParseFrom_within {d : Nat → IeType} {b : Octets} :
    ∀ {fuel pos l}, ieParseFrom d b fuel pos = .ok l → ∀ e ∈ l, e.within b ∧ pos ≤ e.ofs := by
  intro fuel
  induction fuel with
  | zero => intro pos l h; cases h; intro e he; cases he
  | succ k ih =>
    intro pos l h
    unfold ieParseFrom at h
    split at h
    · cases h; intro e he; cases he
    · rename_i hlt
      cases hp : ieParseOne d b pos with
      | err e => simp [hp] at h
      | ub f => simp [hp] at h
      | ok r =>
        obtain ⟨e, n⟩ := r
        simp only [hp] at h
        cases hq : ieParseFrom d b k (pos + n) with
        | err e => simp [hq] at h
        | ub f => simp [hq] at h
        | ok l' =>
          simp only [hq] at h
          cases h
          have h1 := ieParseOne_within (by omega) hp
          intro x hx
          rcases List.mem_cons.1 hx with rfl | hx
          · exact ⟨h1.1, h1.2.1⟩
          · have := ih hq x hx
            exact ⟨this.1, by omega⟩

/-- Every element found lies inside the buffer. -/
theorem ieParse_within {d : Nat → IeType} {b : Octets} {pos : Nat} {l : List Ie}
    (h : ieParse d b pos = .ok l) {tag : Nat} {e : Ie} (hg : ieGet l tag = some e) : e.within b :=
  (ieParseFrom_within h e (List.mem_of_find?_eq_some hg)).1

end Verif.Gsm
