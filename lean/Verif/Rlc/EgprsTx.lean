import Verif.Rlc.Egprs
import Verif.Spec.Egprs

/-!
# Lemmas: transmission and retransmission of EGPRS blocks
-/
namespace Verif.Rlc
open Verif.Spec

/-- The whole payload. -/
def IsWhole (p : Octets) (a : Area) : Prop := a.spb = .noRetx ∧ a.data = p

/-- The first half of the payload of a block first sent with `init`. -/
def IsFirst (p : Octets) (init : Nat) (a : Area) : Prop :=
  (a.spb = .first10 ∨ a.spb = .first6) ∧ halfScheme init = some a.cs ∧ a.data = p.take (p.length / 2)

/-- The second half. -/
def IsSecond (p : Octets) (init : Nat) (a : Area) : Prop :=
  a.spb = .second ∧ halfScheme init = some a.cs ∧ a.data = p.drop (p.length / 2)

/-- What an area may hold after the area `prev` of the same block. -/
def Good (p : Octets) (init : Nat) (prev : Option Area) (a : Area) : Prop :=
  IsWhole p a ∨ IsFirst p init a ∨
    IsSecond p init a ∧ ∃ b, prev = some b ∧ IsFirst p init b ∧ b.cs = a.cs ∧ b.ps = a.ps

/-- The puncturing scheme of an area after the area `prev`. -/
def Punct (prev : Option Area) (a : Area) : Prop :=
  ∀ b, prev = some b → a.spb ≠ .second → ¬ (b.cs = 13 ∧ a.cs = 10) → ¬ (b.cs = 10 ∧ a.cs = 13) →
    a.ps = nextPunct b.cs b.ps a.cs

/-- A relation between each element and its predecessor. -/
def Chain (R : Option Area → Area → Prop) : Option Area → List Area → Prop
  | _, [] => True
  | prev, a :: as => R prev a ∧ Chain R (some a) as

/-- The last area so far. -/
def lastOf : Option Area → List Area → Option Area
  | prev, [] => prev
  | _, a :: as => lastOf (some a) as

theorem Chain.append {R : Option Area → Area → Prop} : ∀ {prev as bs}, Chain R prev as →
    Chain R (lastOf prev as) bs → Chain R prev (as ++ bs)
  | _, [], _, _, h => h
  | _, _ :: _, _, h1, h2 => ⟨h1.1, h1.2.append h2⟩

theorem lastOf_append : ∀ (prev : Option Area) (as bs), lastOf prev (as ++ bs) = lastOf (lastOf prev as) bs
  | _, [], _ => rfl
  | _, a :: as, bs => lastOf_append (some a) as bs

theorem Chain.split {R : Option Area → Area → Prop} {a : Area} {r : List Area} : ∀ (l : List Area) {prev : Option Area},
    Chain R prev (l ++ a :: r) → R (lastOf prev l) a := by
  intro l
  induction l with
  | nil => intro prev h; exact h.1
  | cons x l ih => intro prev h; exact ih (prev := some x) h.2

theorem lastOf_some {l : List Area} {b : Area} (h : lastOf none l = some b) : ∃ l', l = l' ++ [b] := by
  have key : ∀ (l : List Area) (x : Area), lastOf (some x) l = some b → x = b ∧ l = [] ∨ ∃ l', l = l' ++ [b] := by
    intro l
    induction l with
    | nil => intro x h; exact .inl ⟨by simpa [lastOf] using h, rfl⟩
    | cons y l ih =>
      intro x h
      rcases ih y h with ⟨rfl, rfl⟩ | ⟨l', rfl⟩
      · exact .inr ⟨[], rfl⟩
      · exact .inr ⟨y :: l', rfl⟩
  cases l with
  | nil => simp [lastOf] at h
  | cons x l =>
    rcases key l x h with ⟨rfl, rfl⟩ | ⟨l', rfl⟩
    · exact ⟨[], rfl⟩
    · exact ⟨x :: l', rfl⟩

/-- Schemes carrying the whole payload of a block first sent with `init`. -/
def wholeSchemes : Nat → List Nat
  | 5 => [5] | 6 => [6] | 7 => [7] | 8 => [8] | 9 => [9, 11] | 10 => [10, 13] | 11 => [9, 11] | 12 => [12]
  | 13 => [10, 13]
  | _ => []

/-- … or a half of it. -/
def schemes (init : Nat) : List Nat := wholeSchemes init ++ (halfScheme init).toList

/-- Invariant of a block with payload `p`, first sent with `init`, last sent as `prev`.  `NR`: resegmentation is off. -/
structure BlkInv (NR : Prop) (p : Octets) (init : Nat) (b : EgBlk) (prev : Option Area) : Prop where
  buf : b.buf = p ++ List.replicate (74 - p.length) 0
  ini : b.init = init
  cur : b.cur ∈ schemes init
  last : b.last ∈ schemes init
  ps : b.ps < punctCount b.last
  seg : b.seg = .firstSent → ∃ a, prev = some a ∧ IsFirst p init a ∧ a.ps = b.ps ∧ a.cs = b.last
  prv : ∀ a, prev = some a → a.ps < 3 ∧ b.last = a.cs ∧
    b.ps = if a.spb = .first10 ∨ a.spb = .first6 then a.ps else updatePunct a.ps a.cs
  fst : ∀ a, prev = some a → a.spb = .first10 ∨ a.spb = .first6 → b.seg = .firstSent
  nr : NR → b.cur ∈ wholeSchemes init ∧ b.seg ≠ .firstSent

/-- The ways a block goes into an area. -/
inductive Kind (init : Nat) (b : EgBlk) (cs : Nat) (spb : Spb) (len : Nat) : Prop where
  | whole (h1 : spb = .noRetx) (h2 : b.getData = (0, .default)) (h3 : len = payloadLen init false)
      (h4 : cs ∈ wholeSchemes init)
  | first (h1 : spb = .first10 ∨ spb = .first6) (h2 : b.getData = (0, .firstSent)) (h3 : 2 * len = payloadLen init false)
      (h4 : halfScheme init = some cs) (h5 : b.cur ∉ wholeSchemes init)
  | second (h1 : spb = .second) (h2 : b.getData = (len, .secondSent)) (h3 : 2 * len = payloadLen init false)
      (h4 : halfScheme init = some cs) (h5 : b.seg = .firstSent)
  | bad (h1 : spb = .second) (h2 : b.getData = (22, .secondSent)) (h3 : len = 44) (h4 : init = 8) (h5 : cs = 8)
      (h6 : b.seg = .firstSent)

theorem schemes_facts : ∀ init ∈ List.range 14, ∀ cs ∈ schemes init, cs ∈ [5, 6, 7, 8, 9, 10, 11, 12, 13] := by decide

theorem payload_facts : ∀ init ∈ List.range 14, payloadLen init false ≤ 74 := by decide

set_option synthInstance.maxSize 2000 in
set_option synthInstance.maxHeartbeats 400000 in
theorem getPunct_lt : ∀ last ∈ [5, 6, 7, 8, 9, 10, 11, 12, 13], ∀ cs ∈ [5, 6, 7, 8, 9, 10, 11, 12, 13], ∀ ps < 3,
    ps < punctCount last → ∀ spb, (spb = Spb.second → cs = last ∨ last = 5 ∧ cs = 8) →
    getPunct ps last cs spb < punctCount cs := by
  intro last hl cs hc ps hp hlt spb
  have h : ∀ spb ∈ [Spb.noRetx, .first10, .first6, .second], ∀ last ∈ [5, 6, 7, 8, 9, 10, 11, 12, 13],
      ∀ cs ∈ [5, 6, 7, 8, 9, 10, 11, 12, 13], ∀ ps < 3,
      ps < punctCount last → (spb = Spb.second → cs = last ∨ last = 5 ∧ cs = 8) →
      getPunct ps last cs spb < punctCount cs := by decide +kernel
  exact h spb (by cases spb <;> simp) last hl cs hc ps hp hlt

theorem updatePunct_lt : ∀ cs ∈ [5, 6, 7, 8, 9, 10, 11, 12, 13], ∀ ps, updatePunct ps cs < punctCount cs := by
  intro cs hc ps
  simp only [List.mem_cons, List.not_mem_nil, or_false] at hc
  rcases hc with rfl | rfl | rfl | rfl | rfl | rfl | rfl | rfl | rfl <;> simp [updatePunct, punctCount, mcs1, mcs2, mcs3, mcs4, mcs5, mcs6, mcs7, mcs8, mcs9] <;> omega

theorem punctCount_le (cs : Nat) : punctCount cs ≤ 3 := by unfold punctCount; split <;> omega

set_option synthInstance.maxSize 2000 in
set_option synthInstance.maxHeartbeats 400000 in
/-- The puncturing scheme follows the rule, except between MCS-6 and MCS-9. -/
theorem getPunct_next : ∀ c ∈ [5, 6, 7, 8, 9, 10, 11, 12, 13], ∀ d ∈ [5, 6, 7, 8, 9, 10, 11, 12, 13], ∀ p < 3,
    ∀ spb ∈ [Spb.noRetx, .first10, .first6], ¬ (c = 13 ∧ d = 10) → ¬ (c = 10 ∧ d = 13) →
    getPunct (updatePunct p c) c d spb = nextPunct c p d := by decide +kernel

set_option synthInstance.maxSize 2000 in
set_option synthInstance.maxHeartbeats 400000 in
theorem getPunct_first : ∀ c ∈ [5, 6, 7, 8, 9, 10, 11, 12, 13], ∀ d ∈ [5, 6, 7, 8, 9, 10, 11, 12, 13], ∀ p < 3,
    ∀ spb ∈ [Spb.noRetx, .first10, .first6], c ≠ d → ¬ (c = 13 ∧ d = 10) → ¬ (c = 10 ∧ d = 13) →
    getPunct p c d spb = nextPunct c p d := by decide +kernel

theorem half_not_whole : ∀ init ∈ List.range 14, ∀ cs, halfScheme init = some cs → cs ∉ wholeSchemes init ∧ cs ∈ schemes init := by
  intro init hi cs h
  have : ∀ init ∈ List.range 14, ∀ cs ∈ (halfScheme init).toList, cs ∉ wholeSchemes init ∧ cs ∈ schemes init := by decide
  exact this init hi cs (by simp [h])

theorem buf_take {p : Octets} {n : Nat} (h : n ≤ p.length) (k : Nat) :
    ((p ++ List.replicate k 0).drop 0).take n = p.take n := by
  simp [List.take_append_of_le_length h]

theorem getData_seg {b : EgBlk} (h : b.seg = .firstSent) : b.getData.2 ≠ .firstSent := by
  unfold EgBlk.getData
  rw [h]
  by_cases h5 : hdrType b.cur = 5
  · simp [h5]
  · simp [h5]

/-- One area. -/
theorem send_inv {NR : Prop} {p : Octets} {init : Nat} (hi : init ∈ List.range 14) (hp : p.length = payloadLen init false)
    {b : EgBlk} {prev : Option Area} (hb : BlkInv NR p init b prev) {cs len : Nat} {spb : Spb}
    (hk : Kind init b cs spb len) :
    ∃ c a, b.send cs len spb = .ok (c, a) ∧ a.cs = cs ∧ a.spb = spb ∧ a.ps < punctCount cs ∧ BlkInv NR p init c (some a) ∧
      c.cur = b.cur ∧ (NR ∨ init ≠ 8 → Good p init prev a) ∧ Punct prev a := by
  have hp74 := payload_facts init hi
  have hbl : b.buf.length = 74 := by rw [hb.buf]; simp; omega
  have hlast := schemes_facts init hi _ hb.last
  have hcs : cs ∈ schemes init := by
    cases hk with
    | whole h1 h2 h3 h4 => exact List.mem_append_left _ h4
    | first h1 h2 h3 h4 _ => exact (half_not_whole init hi cs h4).2
    | second h1 h2 h3 h4 h5 => exact (half_not_whole init hi cs h4).2
    | bad h1 h2 h3 h4 h5 h6 => subst h4 h5; decide
  have hcs9 := schemes_facts init hi _ hcs
  have hps3 : b.ps < 3 := Nat.lt_of_lt_of_le hb.ps (punctCount_le _)
  have hsec : spb = .second → cs = b.last ∨ b.last = 5 ∧ cs = 8 := by
    intro hs
    cases hk with
    | whole h1 _ _ _ => rw [h1] at hs; cases hs
    | first h1 _ _ _ _ => rcases h1 with h1 | h1 <;> rw [h1] at hs <;> cases hs
    | second h1 h2 h3 h4 h5 =>
      obtain ⟨a, _, ha, _, hl⟩ := hb.seg h5
      left
      have := ha.2.1
      rw [h4] at this
      rw [← hl]; exact Option.some.inj this
    | bad h1 h2 h3 h4 h5 h6 =>
      obtain ⟨a, _, ha, _, hl⟩ := hb.seg h6
      right
      have := ha.2.1
      rw [h4] at this
      exact ⟨by rw [← hl]; exact (Option.some.inj this).symm, h5⟩
  have hlt := getPunct_lt b.last hlast cs hcs9 b.ps hps3 hb.ps spb hsec
  have hle : getPunct b.ps b.last cs spb ≤ 2 := by have := punctCount_le cs; omega
  have hfit : b.getData.1 + len ≤ 74 := by
    cases hk with
    | whole h1 h2 h3 h4 => rw [h2]; dsimp only; omega
    | first h1 h2 h3 h4 _ => rw [h2]; dsimp only; omega
    | second h1 h2 h3 h4 h5 => rw [h2]; dsimp only; omega
    | bad h1 h2 h3 h4 h5 h6 => rw [h2]; dsimp only; omega
  have hsend : b.send cs len spb = .ok ({ b with
        seg := b.getData.2, last := cs,
        ps := if spb = .first10 ∨ spb = .first6 then getPunct b.ps b.last cs spb
          else updatePunct (getPunct b.ps b.last cs spb) cs },
      { cs, spb, ps := getPunct b.ps b.last cs spb, data := (b.buf.drop b.getData.1).take len }) := by
    unfold EgBlk.send
    dsimp only
    rw [if_neg (by intro h; exact h.2 hle), rdN_of_le (by omega), Res.bind_ok]
  refine ⟨_, _, hsend, rfl, rfl, hlt, ?_, rfl, ?_, ?_⟩
  · refine ⟨hb.buf, hb.ini, hb.cur, hcs, ?_, ?_, ?_, ?_, ?_⟩
    · dsimp only
      split
      · exact hlt
      · exact updatePunct_lt cs hcs9 _
    · dsimp only
      intro hseg
      refine ⟨_, rfl, ?_, ?_, rfl⟩
      · cases hk with
        | whole h1 h2 h3 h4 => rw [h2] at hseg; cases hseg
        | first h1 h2 h3 h4 _ =>
          refine ⟨h1, h4, ?_⟩
          dsimp only
          rw [h2, hb.buf]
          have : p.length / 2 = len := by omega
          rw [buf_take (by omega), this]
        | second h1 h2 h3 h4 h5 => rw [h2] at hseg; cases hseg
        | bad h1 h2 h3 h4 h5 h6 => rw [h2] at hseg; cases hseg
      · dsimp only
        rw [if_pos]
        cases hk with
        | whole h1 h2 h3 h4 => rw [h2] at hseg; cases hseg
        | first h1 h2 h3 h4 _ => exact h1
        | second h1 h2 h3 h4 h5 => rw [h2] at hseg; cases hseg
        | bad h1 h2 h3 h4 h5 h6 => rw [h2] at hseg; cases hseg
    · rintro a ha
      cases ha
      exact ⟨by dsimp only; omega, rfl, rfl⟩
    · rintro a ha hf
      cases ha
      dsimp only at hf ⊢
      cases hk with
      | whole h1 h2 h3 h4 => rw [h1] at hf; rcases hf with hf | hf <;> cases hf
      | first h1 h2 h3 h4 _ => rw [h2]
      | second h1 h2 h3 h4 h5 => rw [h1] at hf; rcases hf with hf | hf <;> cases hf
      | bad h1 h2 h3 h4 h5 h6 => rw [h1] at hf; rcases hf with hf | hf <;> cases hf
    · intro hnr
      refine ⟨(hb.nr hnr).1, ?_⟩
      dsimp only
      intro hseg
      cases hk with
      | whole h1 h2 h3 h4 => rw [h2] at hseg; cases hseg
      | first h1 h2 h3 h4 h5 => exact h5 (hb.nr hnr).1
      | second h1 h2 h3 h4 h5 => rw [h2] at hseg; cases hseg
      | bad h1 h2 h3 h4 h5 h6 => rw [h2] at hseg; cases hseg
  · intro hgood
    cases hk with
    | whole h1 h2 h3 h4 =>
      refine .inl ⟨h1, ?_⟩
      dsimp only
      rw [h2, hb.buf, h3, ← hp]
      rw [buf_take (Nat.le_refl _), List.take_length]
    | first h1 h2 h3 h4 _ =>
      refine .inr (.inl ⟨h1, h4, ?_⟩)
      dsimp only
      rw [h2, hb.buf]
      have : p.length / 2 = len := by omega
      rw [buf_take (by omega), this]
    | second h1 h2 h3 h4 h5 =>
      obtain ⟨a, hpa, ha, haps, hl⟩ := hb.seg h5
      have hcl : a.cs = cs := by
        have := ha.2.1
        rw [h4] at this
        exact (Option.some.inj this).symm
      refine .inr (.inr ⟨⟨h1, h4, ?_⟩, a, hpa, ha, hcl, ?_⟩)
      · dsimp only
        rw [h2, hb.buf]
        dsimp only
        have : p.length / 2 = len := by omega
        rw [this, List.drop_append_of_le_length (by omega), List.take_append_of_le_length (by simp; omega),
          List.take_of_length_le (by simp; omega)]
      · dsimp only
        rw [haps, getPunct, if_pos h1]
    | bad h1 h2 h3 h4 h5 h6 =>
      rcases hgood with h | h
      · exact absurd h6 (hb.nr h).2
      · exact absurd h4 h
  · intro a ha hspb hn1 hn2
    dsimp only at *
    obtain ⟨h0, hl, hps⟩ := hb.prv a ha
    have hspb3 : spb ∈ [Spb.noRetx, .first10, .first6] := by
      revert hspb; cases spb <;> simp
    have hac : a.cs ∈ [5, 6, 7, 8, 9, 10, 11, 12, 13] := by rw [← hl]; exact hlast
    rw [hps, hl]
    by_cases hf : a.spb = .first10 ∨ a.spb = .first6
    · rw [if_pos hf] at hps ⊢
      refine getPunct_first a.cs hac cs hcs9 a.ps (by omega) spb hspb3 ?_ hn1 hn2
      -- after a first half comes the second half or the whole
      intro heq
      have hseg := hb.fst a ha hf
      obtain ⟨a', ha', hfa, _, _⟩ := hb.seg hseg
      rw [ha] at ha'
      cases ha'
      cases hk with
      | whole h1 h2 h3 h4 => exact (half_not_whole init hi _ hfa.2.1).1 (heq ▸ h4)
      | first h1 h2 h3 h4 _ => exact getData_seg hseg (by rw [h2])
      | second h1 h2 h3 h4 h5 => exact hspb h1
      | bad h1 h2 h3 h4 h5 h6 => exact hspb h1
    · rw [if_neg hf]
      exact getPunct_next a.cs hac cs hcs9 a.ps h0 spb hspb3 hn1 hn2

/-! ## Radio blocks -/

/-- A block with the given control state, for finite checks. -/
def ctlBlk (init cur : Nat) (seg : Seg) : EgBlk := ⟨[], init, cur, 0, 0, seg⟩

/-- `Kind` as a formula. -/
def KindF (init : Nat) (b : EgBlk) (cs : Nat) (spb : Spb) (len : Nat) : Prop :=
  (spb = .noRetx ∧ b.getData = (0, .default) ∧ len = payloadLen init false ∧ cs ∈ wholeSchemes init) ∨
  ((spb = .first10 ∨ spb = .first6) ∧ b.getData = (0, .firstSent) ∧ 2 * len = payloadLen init false ∧
    halfScheme init = some cs ∧ b.cur ∉ wholeSchemes init) ∨
  (spb = .second ∧ b.getData = (len, .secondSent) ∧ 2 * len = payloadLen init false ∧
    halfScheme init = some cs ∧ b.seg = .firstSent) ∨
  (spb = .second ∧ b.getData = (22, .secondSent) ∧ len = 44 ∧ init = 8 ∧ cs = 8 ∧ b.seg = .firstSent)

instance (init : Nat) (b : EgBlk) (cs : Nat) (spb : Spb) (len : Nat) : Decidable (KindF init b cs spb len) := by
  unfold KindF; infer_instance

theorem KindF.kind {init : Nat} {b : EgBlk} {cs : Nat} {spb : Spb} {len : Nat} (h : KindF init b cs spb len) :
    Kind init b cs spb len := by
  rcases h with ⟨h1, h2, h3, h4⟩ | ⟨h1, h2, h3, h4, h5⟩ | ⟨h1, h2, h3, h4, h5⟩ | ⟨h1, h2, h3, h4, h5, h6⟩
  · exact .whole h1 h2 h3 h4
  · exact .first h1 h2 h3 h4 h5
  · exact .second h1 h2 h3 h4 h5
  · exact .bad h1 h2 h3 h4 h5 h6

/-- The finite check of what `create_ul_acked_block` does with one block number. -/
def TxFacts (init cur : Nat) (seg : Seg) : Prop :=
  let b := ctlBlk init cur seg
  isValidCs b.choose.1 = true ∧ b.choose.2 = false ∧
  KindF init b b.choose.1 b.spb (blkDataLen b.choose.1 b.choose.2) ∧
  (numBlocks (hdrType b.choose.1) = 1 ∨ numBlocks (hdrType b.choose.1) = 2 ∧ init = 12 ∧ cur = 12) ∧
  (numBlocks (hdrType b.choose.1) = 2 ↔ 11 ≤ b.choose.1)

instance (init cur : Nat) (seg : Seg) : Decidable (TxFacts init cur seg) := by unfold TxFacts; infer_instance

theorem tx_facts' : ∀ seg ∈ [Seg.default, .firstSent, .secondSent], ∀ init ∈ List.range 14, ∀ cur ∈ schemes init,
    (seg = .firstSent → (halfScheme init).isSome = true) → TxFacts init cur seg := by decide +kernel

theorem tx_facts {init cur : Nat} (seg : Seg) (hi : init ∈ List.range 14) (hc : cur ∈ schemes init)
    (hs : seg = .firstSent → (halfScheme init).isSome = true) :
    TxFacts init cur seg := tx_facts' seg (by cases seg <;> simp) init hi cur hc hs

/-- Cases of a shared radio block. -/
theorem shared_facts : ∀ seg ∈ [Seg.default, .firstSent, .secondSent], ∀ init ∈ List.range 14, ∀ cur ∈ schemes init,
    numBlocks (hdrType cur) > 1 → 11 ≤ cur ∧ KindF init (ctlBlk init cur seg) cur .noRetx (blkDataLen cur false) := by
  decide +kernel

theorem getData_ctl (b : EgBlk) : b.getData = (ctlBlk b.init b.cur b.seg).getData := rfl
theorem spb_ctl (b : EgBlk) : b.spb = (ctlBlk b.init b.cur b.seg).spb := rfl
theorem choose_ctl (b : EgBlk) : b.choose = (ctlBlk b.init b.cur b.seg).choose := rfl

theorem KindF.of_ctl {b : EgBlk} {init cs len : Nat} {spb : Spb}
    (h : KindF init (ctlBlk b.init b.cur b.seg) cs spb len) : Kind init b cs spb len := KindF.kind h

/-- What a sequence of areas of a block has to satisfy. -/
def Fine (NR : Prop) (p : Octets) (init : Nat) (prev : Option Area) (a : Area) : Prop :=
  (NR ∨ init ≠ 8 → Good p init prev a) ∧ Punct prev a ∧ a.ps < punctCount a.cs ∧ a.cs ∈ schemes init

theorem send_fine {NR : Prop} {p : Octets} {init : Nat} (hi : init ∈ List.range 14) (hp : p.length = payloadLen init false)
    {b : EgBlk} {prev : Option Area} (hb : BlkInv NR p init b prev) {cs len : Nat} {spb : Spb}
    (hk : Kind init b cs spb len) :
    ∃ c a, b.send cs len spb = .ok (c, a) ∧ a.cs = cs ∧ a.spb = spb ∧ BlkInv NR p init c (some a) ∧
      c.cur = b.cur ∧ Fine NR p init prev a := by
  obtain ⟨c, a, h1, h2, h3, h4, h5, h6, h7, h8⟩ := send_inv hi hp hb hk
  refine ⟨c, a, h1, h2, h3, h5, h6, h7, h8, by rw [h2]; exact h4, ?_⟩
  have := h5.last
  rw [(h5.prv a rfl).2.1] at this
  exact this

/-- `create_ul_acked_block` for one block number. -/
theorem tx_inv {NR : Prop} {p : Octets} {init : Nat} (hi : init ∈ List.range 14) (hp : p.length = payloadLen init false)
    {b : EgBlk} {prev : Option Area} (hb : BlkInv NR p init b prev) :
    ∃ c r, b.tx = .ok (c, r) ∧ BlkInv NR p init c (lastOf prev r.areas) ∧ Chain (Fine NR p init) prev r.areas ∧
      r.cs ∈ schemes init ∧ r.padded = false ∧ r.cps = radioCps r.cs r.padded r.areas ∧
      (∀ a ∈ r.areas, a.ps < punctCount r.cs ∧ a.cs = r.cs) ∧ r.areas.length = (if 11 ≤ r.cs then 2 else 1) := by
  obtain ⟨f1, f2, f3, f4, f5⟩ := tx_facts b.seg hi hb.cur (fun h => by
    obtain ⟨a, _, ha, _⟩ := hb.seg h
    simp [ha.2.1])
  rw [← hb.ini] at f1 f2 f3 f4 f5
  rw [← choose_ctl b] at f1 f2 f3 f4 f5
  rw [← spb_ctl b] at f3
  have hk := KindF.of_ctl f3
  obtain ⟨c, a, h1, h2, h3, h4, h5, h6⟩ := send_fine hi hp hb (hb.ini ▸ hk)
  have hn2 : numBlocks (hdrType b.choose.1) ≤ 2 := by rcases f4 with h | ⟨h, _⟩ <;> omega
  have hinit : dataInfoInit true b.choose.1 b.choose.2 = .ok
      { n := numBlocks (hdrType b.choose.1), len := blkDataLen b.choose.1 b.choose.2,
        offs := fun i => hdrBitsUl (hdrType b.choose.1) + (if b.choose.2 then optPadBits b.choose.1 else 0) +
          (i + 1) * blkHdrBits (hdrType b.choose.1) + i * 8 * blkDataLen b.choose.1 b.choose.2 } := by
    rw [dataInfoInit, if_pos f1, dataHeaderInit]
    rw [if_pos hn2]; rfl
  unfold EgBlk.tx
  generalize hch : b.choose = ch at *
  obtain ⟨cs, pad⟩ := ch
  dsimp only at *
  rw [hinit, Res.bind_ok]
  dsimp only
  rcases f4 with hn | ⟨hn, e12, c12⟩
  · rw [hn, if_neg (by omega)]
    have : b.sendN cs (blkDataLen cs pad) b.spb 1 = .ok (c, [a]) := by
      rw [EgBlk.sendN, h1, Res.bind_ok]; rfl
    rw [this, Res.bind_ok]
    refine ⟨_, _, rfl, h4, ⟨h6, trivial⟩, ?_, f2, rfl, ?_, ?_⟩
    · rw [← h2]; exact h6.2.2.2
    · intro x hx
      simp only [List.mem_singleton] at hx
      subst hx
      exact ⟨h2 ▸ h6.2.2.1, h2⟩
    · dsimp only
      rw [if_neg (by rw [← f5]; omega)]; rfl
  · have hcur : c.cur = 12 := by rw [h5, c12]
    have hini : c.init = 12 := by rw [h4.ini, ← hb.ini, e12]
    have hspb : b.spb = .noRetx := by rw [spb_ctl, e12, c12]; rfl
    have hk2 : Kind init c cs b.spb (blkDataLen cs pad) := by
      have hi12 : init = 12 := by rw [← hb.ini, e12]
      have hcs : cs = 12 := by
        have := choose_ctl b
        rw [hch, e12, c12] at this
        exact (Prod.mk.inj this).1
      subst hcs f2 hi12
      rw [hspb]
      apply KindF.kind
      left
      refine ⟨rfl, ?_, rfl, by decide⟩
      rw [getData_ctl, hini, hcur]; rfl
    obtain ⟨c', a', g1, g2, g3, g4, g5, g6⟩ := send_fine hi hp h4 hk2
    rw [hn, if_neg (by omega)]
    have : b.sendN cs (blkDataLen cs pad) b.spb 2 = .ok (c', [a, a']) := by
      have e1 : c.sendN cs (blkDataLen cs pad) b.spb 1 = .ok (c', [a']) := by
        rw [EgBlk.sendN, g1, Res.bind_ok]; rfl
      rw [EgBlk.sendN, h1, Res.bind_ok]
      dsimp only
      rw [e1, Res.bind_ok]
    rw [this, Res.bind_ok]
    refine ⟨_, _, rfl, g4, ⟨h6, g6, trivial⟩, ?_, f2, rfl, ?_, ?_⟩
    · rw [← h2]; exact h6.2.2.2
    · intro x hx
      simp only [List.mem_cons, List.not_mem_nil, or_false] at hx
      rcases hx with rfl | rfl
      · exact ⟨h2 ▸ h6.2.2.1, h2⟩
      · exact ⟨g2 ▸ g6.2.2.1, g2⟩
    · dsimp only
      rw [if_pos (by rw [← f5]; omega)]; rfl

/-- A shared radio block. -/
theorem shared_inv {NR : Prop} {p : Octets} {init : Nat} (hi : init ∈ List.range 14)
    (hp : p.length = payloadLen init false) {b : EgBlk} {prev : Option Area} (hb : BlkInv NR p init b prev)
    (hn : numBlocks (hdrType b.cur) > 1) :
    ∃ c a, b.send b.cur (blkDataLen b.cur false) .noRetx = .ok (c, a) ∧ b.shared b.cur = .ok (c, [a]) ∧
      a.cs = b.cur ∧ BlkInv NR p init c (some a) ∧ Fine NR p init prev a := by
  obtain ⟨_, f⟩ := shared_facts b.seg (by cases b.seg <;> simp) init hi b.cur hb.cur hn
  rw [← hb.ini] at f
  obtain ⟨c, a, h1, h2, h3, h4, h5, h6⟩ := send_fine hi hp hb (hb.ini ▸ KindF.of_ctl f)
  refine ⟨c, a, h1, ?_, h2, h4, h6⟩
  rw [EgBlk.shared, h1, Res.bind_ok]

/-- The commanded schemes lead to schemes for the block. -/
theorem retx_facts : ∀ reseg : Bool, ∀ init ∈ [5, 6, 7, 8, 9, 10, 11, 12, 13], ∀ cmd ∈ [5, 6, 7, 8, 9, 10, 11, 12, 13],
    ∃ m ∈ schemes init, (EgBlk.retx (ctlBlk init 0 .default) cmd reseg = .ok (ctlBlk init m .default)) ∧
      (reseg = false → m ∈ wholeSchemes init) ∧
      (numBlocks (hdrType cmd) > 1 → (info init).dataBytes = (info cmd).dataBytes → m = cmd) := by
  decide +kernel

theorem retx_inv {NR : Prop} {p : Octets} {init : Nat} (hi : init ∈ [5, 6, 7, 8, 9, 10, 11, 12, 13])
    {b : EgBlk} {prev : Option Area} (hb : BlkInv NR p init b prev) {cmd : Nat}
    (hc : cmd ∈ [5, 6, 7, 8, 9, 10, 11, 12, 13]) {reseg : Bool} (hr : NR → reseg = false) :
    ∃ c, b.retx cmd reseg = .ok c ∧ BlkInv NR p init c prev ∧
      (numBlocks (hdrType cmd) > 1 → (info c.init).dataBytes = (info cmd).dataBytes → c.cur = cmd) := by
  obtain ⟨m, hm, h1, h2, h3⟩ := retx_facts reseg init hi cmd hc
  have hg : ∃ r, getRetxMcs init cmd reseg = .ok r ∧ (if init = mcs8 then mcs8 else r) = m := by
    unfold EgBlk.retx at h1
    generalize hgr : getRetxMcs (ctlBlk init 0 Seg.default).init cmd reseg = g at h1
    cases g with
    | ok r =>
      refine ⟨r, hgr, ?_⟩
      rw [Res.bind_ok] at h1
      have := congrArg (fun x : Res EgBlk => match x with | .ok b => b.cur | _ => 0) h1
      exact this
    | err e => exact absurd h1 (by simp)
    | ub f => exact absurd h1 (by simp)
  obtain ⟨r, hr1, hr2⟩ := hg
  refine ⟨{ b with cur := m }, ?_, ⟨hb.buf, hb.ini, hm, hb.last, hb.ps, hb.seg, hb.prv, hb.fst,
    fun hnr => ⟨h2 (hr hnr), (hb.nr hnr).2⟩⟩, ?_⟩
  · rw [EgBlk.retx, hb.ini, hr1, Res.bind_ok, hr2]
  · intro hn he
    rw [show ({ b with cur := m } : EgBlk).init = b.init from rfl, hb.ini] at he
    exact h3 hn he

/-- The schemes in an event are EGPRS schemes. -/
def BlkEv.valid : BlkEv → Prop
  | .same => True
  | .pairSame => True
  | .again cmd _ => cmd ∈ [5, 6, 7, 8, 9, 10, 11, 12, 13]
  | .pairFirst cmd _ => cmd ∈ [5, 6, 7, 8, 9, 10, 11, 12, 13]
  | .pairSecond cmd _ => cmd ∈ [5, 6, 7, 8, 9, 10, 11, 12, 13]

/-- Resegmentation is off. -/
def BlkEv.whole : BlkEv → Prop
  | .same => True
  | .pairSame => True
  | .again _ r => r = false
  | .pairFirst _ r => r = false
  | .pairSecond _ r => r = false

theorem range_of_mem {init : Nat} (hi : init ∈ [5, 6, 7, 8, 9, 10, 11, 12, 13]) : init ∈ List.range 14 := by
  have : ∀ x ∈ [5, 6, 7, 8, 9, 10, 11, 12, 13], x ∈ List.range 14 := by decide
  exact this init hi

theorem eg_step_inv {NR : Prop} {p : Octets} {init : Nat} (hi : init ∈ [5, 6, 7, 8, 9, 10, 11, 12, 13])
    (hp : p.length = payloadLen init false) {b : EgBlk} {prev : Option Area} (hb : BlkInv NR p init b prev)
    (e : BlkEv) (he : e.valid) (hr : NR → e.whole) :
    ∃ c as, b.step e = .ok (c, as) ∧ BlkInv NR p init c (lastOf prev as) ∧ Chain (Fine NR p init) prev as := by
  have hi' := range_of_mem hi
  have alone : ∀ b' : EgBlk, BlkInv NR p init b' prev → ∃ c as,
      (do let (c, r) ← b'.tx; Res.ok (c, r.areas)) = .ok (c, as) ∧ BlkInv NR p init c (lastOf prev as) ∧
        Chain (Fine NR p init) prev as := by
    intro b' hb'
    obtain ⟨c, r, h1, h2, h3, _⟩ := tx_inv hi' hp hb'
    exact ⟨c, r.areas, by rw [h1]; rfl, h2, h3⟩
  have shared : ∀ b' : EgBlk, BlkInv NR p init b' prev → numBlocks (hdrType b'.cur) > 1 → ∃ c as,
      b'.shared b'.cur = .ok (c, as) ∧ BlkInv NR p init c (lastOf prev as) ∧ Chain (Fine NR p init) prev as := by
    intro b' hb' hn
    obtain ⟨c, a, _, h1, h2, h3, h4⟩ := shared_inv hi' hp hb' hn
    exact ⟨c, [a], h1, h3, h4, trivial⟩
  cases e with
  | same => exact alone b hb
  | again cmd reseg =>
    obtain ⟨c, h1, h2, _⟩ := retx_inv hi hb he (reseg := reseg) hr
    unfold EgBlk.step
    dsimp only
    rw [h1, Res.bind_ok]
    exact alone c h2
  | pairSame =>
    unfold EgBlk.step
    dsimp only
    by_cases hn : numBlocks (hdrType b.cur) > 1
    · rw [if_pos hn]; exact shared b hb hn
    · rw [if_neg hn]; exact alone b hb
  | pairFirst cmd reseg =>
    obtain ⟨c, h1, h2, _⟩ := retx_inv hi hb he (reseg := reseg) hr
    unfold EgBlk.step
    dsimp only
    rw [h1, Res.bind_ok]
    by_cases hn : numBlocks (hdrType c.cur) > 1
    · rw [if_pos hn]; exact shared c h2 hn
    · rw [if_neg hn]; exact alone c h2
  | pairSecond cs reseg =>
    obtain ⟨c, h1, h2, h3⟩ := retx_inv hi hb he (reseg := reseg) hr
    unfold EgBlk.step
    dsimp only
    rw [h1, Res.bind_ok]
    by_cases hn : numBlocks (hdrType cs) > 1 ∧ (info c.init).dataBytes = (info cs).dataBytes
    · rw [if_pos hn]
      have := h3 hn.1 hn.2
      subst this
      exact shared c h2 hn.1
    · rw [if_neg hn]
      exact ⟨c, [], rfl, h2, trivial⟩

theorem run_inv {NR : Prop} {p : Octets} {init : Nat} (hi : init ∈ [5, 6, 7, 8, 9, 10, 11, 12, 13])
    (hp : p.length = payloadLen init false) : ∀ (es : List BlkEv) {b : EgBlk} {prev : Option Area},
    BlkInv NR p init b prev → (∀ e ∈ es, e.valid) → (NR → ∀ e ∈ es, e.whole) →
    ∃ c as, b.run es = .ok (c, as) ∧ BlkInv NR p init c (lastOf prev as) ∧ Chain (Fine NR p init) prev as
  | [], b, prev, hb, _, _ => ⟨b, [], rfl, hb, trivial⟩
  | e :: es, b, prev, hb, hv, hr => by
    obtain ⟨c, as, h1, h2, h3⟩ := eg_step_inv hi hp hb e (hv e (by simp)) (fun h => hr h e (by simp))
    obtain ⟨d, bs, g1, g2, g3⟩ := run_inv hi hp es h2 (fun x hx => hv x (by simp [hx]))
      (fun h x hx => hr h x (by simp [hx]))
    refine ⟨d, as ++ bs, ?_, ?_, h3.append g3⟩
    · rw [EgBlk.run, h1, Res.bind_ok]
      dsimp only
      rw [g1, Res.bind_ok]
    · rw [lastOf_append]; exact g2

theorem new_inv (NR : Prop) {p : Octets} {init : Nat} (hi : init ∈ [5, 6, 7, 8, 9, 10, 11, 12, 13]) :
    BlkInv NR p init (EgBlk.new init p) none := by
  have h : ∀ init ∈ [5, 6, 7, 8, 9, 10, 11, 12, 13], init ∈ wholeSchemes init ∧ 0 < punctCount init := by decide
  obtain ⟨h1, h2⟩ := h init hi
  refine ⟨rfl, rfl, List.mem_append_left _ h1, List.mem_append_left _ h1, h2, ?_, ?_, ?_, fun _ => ⟨h1, ?_⟩⟩
  · intro h; cases h
  · intro a h; cases h
  · intro a h; cases h
  · intro h; cases h

/-! ## Coding and puncturing scheme indicator -/

set_option synthInstance.maxSize 2000 in
set_option synthInstance.maxHeartbeats 400000 in
theorem cps_one : ∀ pad : Bool, ∀ cs ∈ [5, 6, 7, 8, 9, 10], (pad = true → cs = 7 ∨ cs = 10) → ∀ p < 3,
    p < punctCount cs →
    ∃ v, mcsCps cs p psInvalid pad = some v ∧ cpsMeaning (headerType cs) v = some (cs, pad, [p]) := by
  intro pad cs hc hpad p hp hlt
  have h : ∀ pad : Bool, ∀ cs ∈ [5, 6, 7, 8, 9, 10], (pad = true → cs = 7 ∨ cs = 10) → ∀ p < 3,
    p < punctCount cs → (mcsCps cs p psInvalid pad).bind (cpsMeaning (headerType cs)) = some (cs, pad, [p]) := by
    decide +kernel
  have := h pad cs hc hpad p hp hlt
  exact Option.bind_eq_some_iff.mp this

set_option synthInstance.maxSize 2000 in
set_option synthInstance.maxHeartbeats 400000 in
theorem cps_two : ∀ cs ∈ [11, 12, 13], ∀ p < 3, ∀ q < 3,
    ∃ v, mcsCps cs p q false = some v ∧ cpsMeaning (headerType cs) v = some (cs, false, [p, q]) := by
  intro cs hc p hp q hq
  have h : ∀ cs ∈ [11, 12, 13], ∀ p < 3, ∀ q < 3,
    (mcsCps cs p q false).bind (cpsMeaning (headerType cs)) = some (cs, false, [p, q]) := by decide +kernel
  exact Option.bind_eq_some_iff.mp (h cs hc p hp q hq)

end Verif.Rlc
