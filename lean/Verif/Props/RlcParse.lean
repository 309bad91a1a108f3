import Verif.Rlc.Dec
import Verif.Spec.RlcBlock

/-!
# C20: the RLC data block parser
-/
namespace Verif.Props

open Verif Verif.Rlc Verif.Spec

/-- The chunks lie one behind the other from `pos` on, inside a payload of `len` octets. -/
inductive Tiles (len : Nat) : Nat → List Chunk → Prop
  | nil {pos} : pos ≤ len → Tiles len pos []
  | cons {pos c cs} : c.offset = pos → Tiles len (pos + c.length) cs → Tiles len pos (c :: cs)

/-- What a chunk contains. -/
def content (data : Octets) (c : Chunk) : Piece := ((data.drop c.offset).take c.length, c.complete)

/-- Chunks as first reported by `parse_extensions_gprs` (proof device). -/
def raw (isLast : Bool) (ls : List Nat) (more : Bool) : List Chunk :=
  (ls.map fun l => ({ length := l, complete := true } : Chunk)) ++
    if more then [{ length := lengthToEnd, complete := isLast }] else []

theorem readLis_small : ∀ (d : Octets) {ls : List Nat} {more : Bool} {rest : Octets},
    readLis d = some (ls, more, rest) → (∀ l ∈ ls, 1 ≤ l ∧ l < 64) ∧ ∃ k, rest = d.drop k ∧ k ≤ d.length := by
  intro d
  induction d with
  | nil => intro ls more rest h; simp [readLis] at h
  | cons o d ih =>
    intro ls more rest h
    have ho : o.toNat < 256 := o.toNat_lt
    simp only [readLis] at h
    split at h
    · injection h with h
      injection h with h1 h2
      injection h2 with h2 h3
      subst h1 h3
      exact ⟨by simp, 1, by simp, by simp⟩
    · split at h
      · cases h
      · split at h
        · simp only [Option.map_eq_some_iff] at h
          obtain ⟨⟨a, b, c⟩, h1, h2⟩ := h
          injection h2 with h2 h3
          injection h3 with h3 h4
          simp only at h2 h3 h4
          subst h2 h3 h4
          obtain ⟨i1, k, i2, i3⟩ := ih h1
          refine ⟨?_, k + 1, by simpa using i2, by simp; omega⟩
          intro l hl
          rcases List.mem_cons.1 hl with hl | hl
          · omega
          · exact i1 l hl
        · injection h with h
          injection h with h1 h2
          injection h2 with h2 h3
          subst h1 h3
          refine ⟨?_, 1, by simp, by simp⟩
          intro l hl
          simp at hl
          omega

theorem pe_step {data : Octets} {isLast : Bool} {size f offs o l m e : Nat} {acc : List Chunk}
    (hgt : ¬ offs > data.length) (hrd : rd data offs = .ok o) (hl : o / 4 = l) (hm : o / 2 % 2 = m) (he : o % 2 = e) :
    parseExtLoop data isLast size (f + 1) offs acc =
      (if (if l = 0 then 0 else m) = 0 ∧ (if l = 0 then 1 else e) = 0 then .ok (offs + 1, [])
      else if acc.length = size then .err .enospc
      else if (if l = 0 then 1 else e) = 1 ∧ (if l = 0 then 0 else m) = 1 then
        if (acc ++ [({ length := if l = 0 then lengthToEnd else l, complete := l ≠ 0 || isLast } : Chunk)]).length = size
        then .err .enospc
        else .ok (offs + 1, acc ++ [{ length := if l = 0 then lengthToEnd else l, complete := l ≠ 0 || isLast }] ++
          [{ length := lengthToEnd, complete := isLast }])
      else if (if l = 0 then 1 else e) = 1 then
        .ok (offs + 1, acc ++ [{ length := if l = 0 then lengthToEnd else l, complete := l ≠ 0 || isLast }])
      else parseExtLoop data isLast size f (offs + 1)
        (acc ++ [{ length := if l = 0 then lengthToEnd else l, complete := l ≠ 0 || isLast }])) := by
  subst hl hm he
  rw [parseExtLoop, if_neg hgt, hrd]
  rfl

theorem readLis_step {o l m e : Nat} {x : UInt8} {rest : Octets} (hx : x.toNat = o) (hl : o / 4 = l) (hm : o / 2 % 2 = m)
    (he : o % 2 = e) :
    readLis (x :: rest) = if l = 0 then some ([], true, rest)
      else if m = 0 ∧ e = 0 then none
      else if e = 0 then (readLis rest).map fun r => (l :: r.1, r.2.1, r.2.2)
      else some ([l], decide (m = 1), rest) := by
  subst hx hl hm he
  rw [readLis]

theorem parseExt_spec (data : Octets) (isLast : Bool) (size : Nat) (hlen : size < data.length) :
    ∀ (f : Nat) (acc : List Chunk), acc.length + f = size + 1 → 0 < f →
    match readLis (data.drop acc.length) with
    | none => parseExtLoop data isLast size f acc.length acc = .err .enospc ∨
        ∃ o, parseExtLoop data isLast size f acc.length acc = .ok (o, [])  ∧ o ≤ data.length
    | some (ls, more, rest) =>
      if acc.length + (raw isLast ls more).length ≤ size then
        ∃ o, parseExtLoop data isLast size f acc.length acc = .ok (o, acc ++ raw isLast ls more) ∧
          rest = data.drop o ∧ o ≤ data.length
      else parseExtLoop data isLast size f acc.length acc = .err .enospc := by
  intro f
  induction f with
  | zero => intro acc _ h; omega
  | succ f ih =>
    intro acc hf _
    have hin : acc.length < data.length := by omega
    obtain ⟨o, ho⟩ : ∃ o, data[acc.length]? = some o := ⟨_, List.getElem?_eq_getElem hin⟩
    have hdrop : data.drop acc.length = o :: data.drop (acc.length + 1) := by
      rw [List.drop_eq_getElem_cons hin]
      rw [List.getElem?_eq_getElem hin] at ho
      injection ho with ho
      rw [ho]
    have hrd : rd data acc.length = .ok o.toNat := by
      simp [rd, ho]
    have hgt : ¬ acc.length > data.length := by omega
    rw [hdrop]
    obtain ⟨l, hl0⟩ : ∃ l, o.toNat / 4 = l := ⟨_, rfl⟩
    obtain ⟨m, hm0⟩ : ∃ m, o.toNat / 2 % 2 = m := ⟨_, rfl⟩
    obtain ⟨e, he0⟩ : ∃ e, o.toNat % 2 = e := ⟨_, rfl⟩
    have hP := @pe_step data isLast size f acc.length o.toNat l m e acc hgt hrd hl0 hm0 he0
    have hR := @readLis_step o.toNat l m e o (data.drop (acc.length + 1)) rfl hl0 hm0 he0
    have hmb : m = 0 ∨ m = 1 := by omega
    have heb : e = 0 ∨ e = 1 := by omega
    rw [hR, hP]
    clear hR hP hl0 hm0 he0 ho hrd hdrop
    by_cases hl : l = 0
    · -- LI = 0
      subst hl
      have hraw : (raw isLast [] true) = [{ length := lengthToEnd, complete := isLast }] := rfl
      simp only [if_true, hraw, List.length_singleton, Nat.one_ne_zero, and_false, if_false, Nat.zero_ne_one]
      by_cases hs : acc.length = size
      · rw [if_neg (by omega), if_pos hs]
      · rw [if_pos (by omega), if_neg hs]
        exact ⟨acc.length + 1, by simp, rfl, by omega⟩
    · simp only [hl, if_false]
      rcases hmb with rfl | rfl <;> rcases heb with rfl | rfl
      · exact Or.inr ⟨acc.length + 1, by simp, by omega⟩
      · have hraw : raw isLast [l] false = [{ length := l, complete := true }] := rfl
        simp only [Nat.zero_ne_one, decide_false, hraw, List.length_cons, List.length_nil, Nat.one_ne_zero, and_false,
          if_false, if_true]
        by_cases hs : acc.length = size
        · rw [if_neg (by omega), if_pos hs]
        · rw [if_pos (by omega), if_neg hs]
          exact ⟨acc.length + 1, by simp [hl], rfl, by omega⟩
      · -- another length indicator follows
        simp only [Nat.one_ne_zero, false_and, if_false, if_true, Nat.zero_ne_one]
        by_cases hs : acc.length = size
        · simp only [hs, if_true]
          rcases hr : readLis (data.drop (size + 1)) with _ | ⟨ls, more, rest⟩
          · exact Or.inl trivial
          · simp only [Option.map_some]
            rw [if_neg (by simp [raw])]
            trivial
        · simp only [hs, if_false]
          have := ih (acc ++ [{ length := l, complete := true }]) (by simp; omega) (by omega)
          simp only [List.length_append, List.length_singleton] at this
          have hc : (decide (l ≠ 0) || isLast) = true := by simp [hl]
          rw [hc]
          revert this
          rcases hr : readLis (data.drop (acc.length + 1)) with _ | ⟨ls, more, rest⟩
          · exact id
          · simp only [Option.map_some]
            have hrl : acc.length + (raw isLast (l :: ls) more).length =
                acc.length + 1 + (raw isLast ls more).length := by simp [raw]; omega
            rw [hrl]
            by_cases hk : acc.length + 1 + (raw isLast ls more).length ≤ size
            · rw [if_pos hk, if_pos hk]
              rintro ⟨o', h1, h2, h3⟩
              refine ⟨o', ?_, h2, h3⟩
              rw [h1]
              simp [raw]
            · rw [if_neg hk, if_neg hk]
              exact id
      · have hraw : raw isLast [l] true =
          [{ length := l, complete := true }, { length := lengthToEnd, complete := isLast }] := rfl
        simp only [decide_true, hraw, List.length_cons, List.length_nil, Nat.one_ne_zero, and_self, if_false, if_true,
          List.length_append]
        by_cases hs : acc.length = size
        · rw [if_neg (by omega), if_pos hs]
        · rw [if_neg hs]
          by_cases hs2 : acc.length + (0 + 1) = size
          · rw [if_neg (by omega), if_pos hs2]
          · rw [if_pos (by omega), if_neg hs2]
            exact ⟨acc.length + 1, by simp [hl], rfl, by omega⟩

theorem layout_spec (data : Octets) (isLast more : Bool) : ∀ (ls : List Nat) (o : Nat),
    (∀ l ∈ ls, l < 255) → o ≤ data.length →
    match cut isLast more ls (data.drop o) with
    | none => layout data.length o (raw isLast ls more) = .err .einval
    | some ps => ∃ cs, layout data.length o (raw isLast ls more) = .ok cs ∧ Tiles data.length o cs ∧
        cs.map (content data) = ps := by
  intro ls
  induction ls with
  | nil =>
    intro o _ ho
    simp only [cut]
    cases more with
    | false => exact ⟨[], by simp [raw, layout], .nil ho, by simp⟩
    | true =>
      have hraw : raw isLast [] true = [{ length := lengthToEnd, complete := isLast }] := rfl
      rw [hraw]
      simp only [layout, true_and]
      by_cases h : o = data.length
      · subst h
        exact ⟨[], by simp, .nil (Nat.le_refl _), by simp⟩
      · have : data.drop o ≠ [] := by
          intro e
          have := congrArg List.length e
          simp at this
          omega
        rw [if_neg h, if_true, if_neg (by omega)]
        refine ⟨_, rfl, .cons rfl (.nil (by simp only; omega)), ?_⟩
        simp [content, this, List.take_of_length_le]
  | cons l ls ih =>
    intro o hl ho
    have hl1 := hl l (by simp)
    have hraw : raw isLast (l :: ls) more = { length := l, complete := true } :: raw isLast ls more := by simp [raw]
    rw [hraw]
    simp only [cut, layout]
    have hne : ¬ l = lengthToEnd := by simp [lengthToEnd]; omega
    simp only [hne, false_and, if_false, List.length_drop]
    by_cases hb : l ≤ data.length - o
    · rw [if_pos hb, if_neg (by omega)]
      have := ih (o + l) (fun x hx => hl x (by simp [hx])) (by omega)
      rw [List.drop_drop]
      revert this
      rcases hc : cut isLast more ls (data.drop (o + l)) with _ | ps
      · intro this; simp [this]
      · rintro ⟨cs, h1, h2, h3⟩
        simp only [h1, Res.bind_ok, Option.map_some]
        exact ⟨_, rfl, .cons rfl h2, by simp [content, h3]⟩
    · rw [if_neg hb, if_pos (by omega)]

/-- C20: for every GPRS block (the payloads have 20, 30, 36 or 50 octets; anything from 17 octets on will do)
the parser reads nothing outside the payload; the chunks it reports lie one behind the other inside the
payload, and are exactly the pieces of LLC PDUs the standard defines (none, if the length indicators are
malformed).  Only blocks with malformed length indicators, or with 16 or more pieces, are rejected. -/
theorem c20_parser_exact (e isLast : Bool) (data : Octets) (hlen : 17 ≤ data.length) :
    match fromDlData e isLast data 16 with
    | .ub _ => False
    | .err _ => pieces false e isLast data = none ∨ ∃ ps, pieces false e isLast data = some ps ∧ 16 ≤ ps.length
    | .ok cs => (∃ start, Tiles data.length start cs) ∧
        (pieces false e isLast data = some (cs.map (content data)) ∨ cs = [] ∧ pieces false e isLast data = none) := by
  unfold fromDlData
  cases e with
  | true =>
    simp only [if_true, Res.bind_ok]
    have h := layout_spec data isLast true [] 0 (by simp) (by omega)
    have hraw : raw isLast [] true = [{ length := lengthToEnd, complete := isLast }] := rfl
    rw [hraw] at h
    simp only [cut] at h
    obtain ⟨cs, h1, h2, h3⟩ := h
    rw [h1]
    refine ⟨⟨0, h2⟩, Or.inl ?_⟩
    simp only [pieces, if_true, cut]
    rw [h3]
    simp
  | false =>
    simp only [Bool.false_eq_true, if_false, pieces]
    have h := parseExt_spec data isLast 16 (by omega) 17 [] (by simp) (by omega)
    simp only [List.length_nil, List.drop_zero, Nat.zero_add, List.nil_append] at h
    revert h
    rcases hr : readLis data with _ | ⟨ls, more, rest⟩
    · intro h
      rcases h with h | ⟨o, h, ho⟩
      · simp [h]
      · simp only [h, Res.bind_ok, layout]
        exact ⟨⟨o, .nil ho⟩, Or.inr ⟨trivial, rfl⟩⟩
    · simp only [Option.bind_some]
      obtain ⟨hls, _⟩ := readLis_small data hr
      by_cases hk : (raw isLast ls more).length ≤ 16
      · rw [if_pos hk]
        rintro ⟨o, h1, h2, h3⟩
        subst h2
        simp only [h1, Res.bind_ok, List.drop_zero]
        have h := layout_spec data isLast more ls o (fun l hl => by have := (hls l hl).2; omega) h3
        revert h
        rcases hc : cut isLast more ls (data.drop o) with _ | ps
        · intro h; simp [h]
        · rintro ⟨cs, g1, g2, g3⟩
          rw [g1]
          exact ⟨⟨o, g2⟩, Or.inl (by rw [g3])⟩
      · rw [if_neg hk]
        intro h
        simp only [h, Res.bind_err, List.drop_zero]
        rcases hc : cut isLast more ls rest with _ | ps
        · exact Or.inl rfl
        · refine Or.inr ⟨ps, rfl, ?_⟩
          have : ∀ (ls : List Nat) (d : Octets) (ps : List Piece), cut isLast more ls d = some ps → ls.length ≤ ps.length := by
            intro ls
            induction ls with
            | nil => intro d ps _; simp
            | cons l ls ih =>
              intro d ps h
              simp only [cut] at h
              split at h
              · simp only [Option.map_eq_some_iff] at h
                obtain ⟨a, h1, h2⟩ := h
                have := ih _ _ h1
                rw [← h2]
                simp; omega
              · cases h
          have := this ls rest ps hc
          have hr : (raw isLast ls more).length ≤ ls.length + 1 := by
            simp [raw]; split <;> simp
          omega

/-- A CS-1 block with two length indicators (3 octets, then 4, more to follow). -/
example : fromDlData false false [0x0e, 0x13, 1, 2, 3, 4, 5, 6, 7, 8, 9, 10, 11, 12, 13, 14, 15, 16, 17, 18] 16 =
    .ok [{ offset := 2, length := 3, complete := true }, { offset := 5, length := 4, complete := true },
         { offset := 9, length := 11, complete := false }] := by decide +kernel

/-- The bound check of the parser is off by one (`>` for `>=`): for a payload shorter than 17 octets whose
length indicators do not end it reads one octet too many.  GPRS has no such payloads. -/
theorem c20_short_payload_overread : fromDlData false false [0x06, 0x06] 16 = .ub .outOfBounds := by decide +kernel

end Verif.Props
