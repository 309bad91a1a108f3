import Verif.Rlc.DataApi
import Verif.Spec.RlcData
import Verif.Props.RlcWire

/-!
C173, C174: data blocks read and written for users of the library.
-/

namespace Verif.Props
open Verif Verif.Rlc Verif.Spec

/-- An entry of the arrays says what a length indicator says. -/
def LiSays (y : LiEntry) (x : LenInd) : Prop := y.li = x.li ∧ y.m = x.m.toNat ∧ y.e = x.e.toNat

/-- What is read says what the block says. -/
structure UlSays (y : UlDataOut) (p : UlPdu) : Prop where
  cv : y.cv = p.cv
  si : y.si = p.si.toNat
  r : y.r = p.r.toNat
  spare : y.spare = p.spare.toNat
  pi : y.pi = p.pfi.isSome.toNat
  tfi : y.tfi = p.tfi
  ti : y.ti = p.tlli.isSome.toNat
  bsn : y.bsn = p.bsn
  e1 : y.e1 = p.lis.isEmpty.toNat
  lis : List.Forall₂ LiSays y.lis p.lis
  tlli : y.tlli = p.tlli
  pfi : y.pfi = p.pfi.map fun x => (x.1, x.2.toNat)
  data : y.data = p.data

/-- **C173**, full statement.  Every uplink data block of CS-1 (23 octets) is read as what it consists of. -/
def C173Statement : Prop :=
  ∀ p : UlPdu, p.Ok → p.octets.length = 23 → ∃ y, decodeUplinkData p.octets = .ok (some y) ∧ UlSays y p

theorem b2n (b : Bool) : b.toNat < 2 := by cases b <;> decide

theorem u8lt (n : Nat) (h : n < 256) : (UInt8.ofNat n).toNat = n := u8_toNat h

theorem li_octet (x : LenInd) (h : x.li < 64) :
    x.octet.toNat / 4 = x.li ∧ x.octet.toNat / 2 % 2 = x.m.toNat ∧ x.octet.toNat % 2 = x.e.toNat := by
  have h1 := b2n x.m
  have h2 := b2n x.e
  unfold LenInd.octet
  rw [u8lt _ (by omega)]
  omega

theorem goesOn_iff (x : LenInd) : (x.m.toNat = 1 ∧ x.e.toNat = 0) ↔ x.goesOn = true := by
  unfold LenInd.goesOn
  cases x.m <;> cases x.e <;> decide

theorem liRead_chain : ∀ (l : List LenInd) (i : Nat) (rest : Octets), l ≠ [] → Chain l → i + l.length ≤ 5 →
    ∃ ys, liRead i (l.map LenInd.octet ++ rest) = .ok (ys, rest) ∧ List.Forall₂ LiSays ys l := by
  intro l
  induction l with
  | nil => intro i rest h; exact absurd rfl h
  | cons x l ih =>
    intro i rest _ hc hi
    simp only [List.length_cons] at hi
    have hi5 : i < maxLlcPdu := by unfold maxLlcPdu; omega
    cases l with
    | nil =>
      obtain ⟨h1, h2⟩ := hc
      obtain ⟨a, b, c⟩ := li_octet x h1
      refine ⟨[⟨x.li, x.m.toNat, x.e.toNat⟩], ?_, .cons ⟨rfl, rfl, rfl⟩ .nil⟩
      simp only [List.map_cons, List.map_nil, List.cons_append, List.nil_append, liRead]
      rw [if_pos hi5, a, b, c, if_neg]
      rw [goesOn_iff, h2]; simp
    | cons y l =>
      obtain ⟨h1, h2, h3⟩ := hc
      obtain ⟨a, b, c⟩ := li_octet x h1
      obtain ⟨ys, e1, e2⟩ := ih (i + 1) rest (by simp) h3 (by simp only [List.length_cons] at hi ⊢; omega)
      refine ⟨⟨x.li, x.m.toNat, x.e.toNat⟩ :: ys, ?_, .cons ⟨rfl, rfl, rfl⟩ e2⟩
      rw [List.map_cons, List.cons_append, liRead]
      simp only
      rw [if_pos hi5, a, b, c, if_pos ((goesOn_iff x).2 h2), e1]
      rfl

theorem range_getD (l : Octets) : (List.range l.length).map (fun i => l.getD i 0) = l := by
  apply List.ext_getElem
  · simp
  · intro i h1 h2
    simp [List.getD_eq_getElem?_getD, h2]

theorem decode_cons (o0 o1 o2 : UInt8) (l : Octets) : decodeUplinkData (o0 :: o1 :: o2 :: l) =
    if o0.toNat / 64 = 0 then (do
      let x ← lisRead (o2.toNat % 2) l
      ulDataRest (l.length + 3) o0.toNat o1.toNat o2.toNat x.1 x.2)
    else .ok none := rfl

/-- **C173, proved part**: blocks with at most five length indicators. -/
theorem c173_partial (p : UlPdu) (ok : p.Ok) (hl : p.octets.length = 23) (h5 : p.lis.length ≤ 5) :
    ∃ y, decodeUplinkData p.octets = .ok (some y) ∧ UlSays y p := by
  have b1 := b2n p.si
  have b2 := b2n p.r
  have b3 := b2n p.spare
  have b4 := b2n p.pfi.isSome
  have b5 := b2n p.tlli.isSome
  have b6 := b2n p.lis.isEmpty
  have o1 := ok.cv
  have o2 := ok.tfi
  have o3 := ok.bsn
  obtain ⟨T, hT⟩ : ∃ T, T = (match p.tlli with
    | some t => [UInt8.ofNat (t / 16777216), UInt8.ofNat (t / 65536 % 256), UInt8.ofNat (t / 256 % 256), UInt8.ofNat (t % 256)]
    | none => ([] : Octets)) := ⟨_, rfl⟩
  obtain ⟨F, hF⟩ : ∃ F, F = (match p.pfi with
    | some (f, e) => [UInt8.ofNat (f * 2 + e.toNat)]
    | none => ([] : Octets)) := ⟨_, rfl⟩
  have hoct : p.octets = UInt8.ofNat (p.cv * 4 + p.si.toNat * 2 + p.r.toNat) ::
      UInt8.ofNat (p.spare.toNat * 128 + p.pfi.isSome.toNat * 64 + p.tfi * 2 + p.tlli.isSome.toNat) ::
      UInt8.ofNat (p.bsn * 2 + p.lis.isEmpty.toNat) :: (p.lis.map LenInd.octet ++ (T ++ (F ++ p.data))) := by
    rw [hT, hF]; simp only [UlPdu.octets, List.cons_append, List.nil_append, List.append_assoc]; rfl
  have hlen : 3 + p.lis.length + T.length + F.length + p.data.length = 23 := by
    rw [hoct] at hl
    simp at hl; omega
  obtain ⟨ys, e1, e2⟩ : ∃ ys, lisRead ((p.bsn * 2 + p.lis.isEmpty.toNat) % 2) (p.lis.map LenInd.octet ++ (T ++ (F ++ p.data))) =
      .ok (ys, T ++ (F ++ p.data)) ∧ List.Forall₂ LiSays ys p.lis := by
    unfold lisRead
    cases hlis : p.lis with
    | nil => exact ⟨[], by rw [if_neg (by simp)]; rfl, .nil⟩
    | cons x l =>
      rw [if_pos (by simp)]
      have hc := ok.lis
      rw [hlis] at hc h5
      exact liRead_chain (x :: l) 0 _ (by simp) hc (by omega)
  have hdl : ∀ (D : Nat), D = p.octets.length → (23 + 4294967296 - (D - p.data.length)) % 4294967296 = p.data.length := by
    intro D hD; rw [hD, hl]; omega
  rw [hoct, decode_cons]
  rw [u8lt _ (by omega), u8lt _ (by omega), u8lt _ (by omega), if_pos (by omega), e1]
  simp only [Res.bind_ok, ulDataRest]
  have hti : (p.spare.toNat * 128 + p.pfi.isSome.toNat * 64 + p.tfi * 2 + p.tlli.isSome.toNat) % 2 = p.tlli.isSome.toNat := by omega
  have hpi : (p.spare.toNat * 128 + p.pfi.isSome.toNat * 64 + p.tfi * 2 + p.tlli.isSome.toNat) / 64 % 2 = p.pfi.isSome.toNat := by omega
  rw [hti, hpi]
  -- the TLLI
  have hw : ∀ t, p.tlli = some t → bvWord (T ++ (F ++ p.data)) = (t, F ++ p.data) := by
    intro t ht
    have := ok.tlli t ht
    rw [hT, ht]
    simp only [List.cons_append, List.nil_append, bvWord]
    rw [u8lt _ (by omega), u8lt _ (by omega), u8lt _ (by omega), u8lt _ (by omega)]
    congr 1; omega
  have ht1 : (if p.tlli.isSome.toNat = 1 then some (bvWord (T ++ (F ++ p.data))).1 else none) = p.tlli := by
    cases h : p.tlli with
    | none => rfl
    | some t => rw [hw t h]; rfl
  have ht2 : (if p.tlli.isSome.toNat = 1 then (bvWord (T ++ (F ++ p.data))).2 else T ++ (F ++ p.data)) = F ++ p.data := by
    cases h : p.tlli with
    | none => rw [hT, h]; rfl
    | some t => rw [hw t h]; rfl
  rw [ht1, ht2]
  have hf1 : (if p.tlli.isSome.toNat = 1 ∧ p.pfi.isSome.toNat = 1 then
      some ((bvOctet (F ++ p.data)).1 / 2, (bvOctet (F ++ p.data)).1 % 2) else none) = p.pfi.map (fun x => (x.1, x.2.toNat)) := by
    cases h : p.pfi with
    | none => rw [if_neg (by simp)]; rfl
    | some x =>
      obtain ⟨f, e⟩ := x
      have h1 := ok.pfi _ h
      have h2 := b2n e
      rw [if_pos ⟨by rw [h1.2]; rfl, rfl⟩, hF, h]
      simp only [List.cons_append, List.nil_append, bvOctet, Option.map_some]
      rw [u8lt _ (by simp only at h1; omega)]
      congr 2 <;> omega
  have hf2 : (if p.tlli.isSome.toNat = 1 ∧ p.pfi.isSome.toNat = 1 then (bvOctet (F ++ p.data)).2 else F ++ p.data) = p.data := by
    cases h : p.pfi with
    | none => rw [if_neg (by simp), hF, h]; rfl
    | some x =>
      obtain ⟨f, e⟩ := x
      have h1 := ok.pfi _ h
      rw [if_pos ⟨by rw [h1.2]; rfl, rfl⟩, hF, h]; rfl
  rw [hf1, hf2, hdl _ (by rw [hoct]; simp), if_pos (by omega)]
  refine ⟨_, rfl, ?_⟩
  exact {
    cv := by simp only; omega
    si := by simp only; omega
    r := by simp only; omega
    spare := by simp only; omega
    pi := rfl
    tfi := by simp only; omega
    ti := rfl
    bsn := by simp only; omega
    e1 := by simp only; omega
    lis := e2
    tlli := rfl
    pfi := rfl
    data := range_getD p.data }

/-- Six length indicators of one octet each, as for six frames of one octet. -/
def sixPdus : UlPdu :=
  ⟨0, false, false, false, 3, 0, List.replicate 5 ⟨1, true, false⟩ ++ [⟨1, false, true⟩], none, none, List.replicate 14 0x2b⟩

theorem c173_violated : ¬ C173Statement := by
  intro h
  obtain ⟨y, hy, _⟩ := h sixPdus ⟨by decide, by decide, by decide, by simp [sixPdus, Chain, LenInd.goesOn, List.replicate], by simp [sixPdus], by simp [sixPdus]⟩
    (by decide)
  rw [show decodeUplinkData sixPdus.octets = .ub .outOfBounds by decide +kernel] at hy
  cases hy

/-- A block with two frames and the beginning of a third, a TLLI and a PFI. -/
example : ∃ p : UlPdu, p.Ok ∧ p.octets.length = 23 ∧ p.lis.length = 2 ∧ p.tlli.isSome ∧ p.pfi.isSome :=
  ⟨⟨7, true, false, false, 9, 100, [⟨4, true, false⟩, ⟨5, true, true⟩], some 0xc0012345, some (3, true), List.replicate 13 1⟩,
    ⟨by decide, by decide, by decide, by simp [Chain, LenInd.goesOn], by simp, by simp⟩, by decide, rfl, rfl, rfl⟩

/-! ## No harm but by a chain of more than five -/

theorem liRead_ok : ∀ (l : Octets) (i : Nat), (∃ k, i + k < 5 ∧ ∀ o, l[k]? = some o → ¬ (o.toNat / 2 % 2 = 1 ∧ o.toNat % 2 = 0)) →
    ∃ ys r, liRead i l = .ok (ys, r) ∧ r.length ≤ l.length ∧ l.length ≤ r.length + 5 - i := by
  intro l
  induction l with
  | nil =>
    intro i ⟨k, hk, _⟩
    exact ⟨_, [], by rw [liRead, if_pos (by unfold maxLlcPdu; omega)], by simp, by simp⟩
  | cons o l ih =>
    intro i ⟨k, hk, h⟩
    rw [liRead]
    simp only
    rw [if_pos (by unfold maxLlcPdu; omega)]
    by_cases hg : o.toNat / 2 % 2 = 1 ∧ o.toNat % 2 = 0
    · rw [if_pos hg]
      cases k with
      | zero => exact absurd hg (h o rfl)
      | succ k =>
        obtain ⟨ys, r, e, h1, h2⟩ := ih (i + 1) ⟨k, by omega, fun x hx => h x hx⟩
        rw [e]
        exact ⟨_, r, rfl, by simp; omega, by simp; omega⟩
    · rw [if_neg hg]
      exact ⟨_, l, rfl, by simp, by simp; omega⟩

/-- **C173, for hostile blocks**: reading any 23 octets does no harm unless octets 4 to 8 all announce a further length indicator. -/
theorem c173_safe (d : Octets) (hd : d.length = 23) (h : ∃ k, k < 5 ∧ ∀ o, d[k + 3]? = some o → ¬ (o.toNat / 2 % 2 = 1 ∧ o.toNat % 2 = 0)) :
    ∃ y, decodeUplinkData d = .ok y := by
  obtain ⟨o0, d, rfl⟩ : ∃ x l, d = x :: l := by cases d with | nil => simp at hd | cons x l => exact ⟨x, l, rfl⟩
  obtain ⟨o1, d, rfl⟩ : ∃ x l, d = x :: l := by cases d with | nil => simp at hd | cons x l => exact ⟨x, l, rfl⟩
  obtain ⟨o2, d, rfl⟩ : ∃ x l, d = x :: l := by cases d with | nil => simp at hd | cons x l => exact ⟨x, l, rfl⟩
  rw [decode_cons]
  by_cases h0 : o0.toNat / 64 = 0
  · rw [if_pos h0]
    obtain ⟨k, hk, h⟩ := h
    obtain ⟨ys, r, e, l1, l2⟩ : ∃ ys r, lisRead (o2.toNat % 2) d = .ok (ys, r) ∧
        r.length ≤ d.length ∧ d.length ≤ r.length + 5 := by
      unfold lisRead
      split
      · exact liRead_ok d 0 ⟨k, by omega, fun o ho => h o ho⟩
      · exact ⟨_, _, rfl, Nat.le_refl _, by omega⟩
    rw [e]
    simp only [Res.bind_ok, ulDataRest]
    simp only [List.length_cons] at hd
    have hw : (bvWord r).2.length + 4 = r.length := by
      unfold bvWord
      split
      · simp
      · rename_i hx
        exfalso
        match r, hx with
        | [], _ => simp at l2; omega
        | [_], _ => simp at l2; omega
        | [_, _], _ => simp at l2; omega
        | [_, _, _], _ => simp at l2; omega
        | a :: b :: c :: d :: l, hx => exact hx a b c d l rfl
    have ho : ∀ x : Octets, (bvOctet x).2.length ≤ x.length ∧ x.length ≤ (bvOctet x).2.length + 1 := by
      intro x; cases x <;> simp [bvOctet]
    generalize hr5 : (if o1.toNat % 2 = 1 then (bvWord r).2 else r) = r5
    have h5 : r5.length ≤ r.length ∧ r.length ≤ r5.length + 4 := by
      rw [← hr5]; split <;> omega
    have h6 := ho r5
    generalize hr6 : (if o1.toNat % 2 = 1 ∧ o1.toNat / 64 % 2 = 1 then (bvOctet r5).2 else r5) = r6
    have h7 : r6.length ≤ r5.length ∧ r5.length ≤ r6.length + 1 := by
      rw [← hr6]; split <;> omega
    rw [if_pos (by omega)]
    exact ⟨_, rfl⟩
  · rw [if_neg h0]; exact ⟨_, rfl⟩

/-! ## C174 -/

/-- The entries used: up to the first that announces no further one. -/
def usedLis : List LiEntry → List LiEntry
  | [] => []
  | x :: l => if x.m = 1 ∧ x.e = 0 then x :: usedLis l else [x]

/-- What the user may ask for: fields within their ranges, arrays of their sizes, and one of the five length indicators
is the last. -/
structure DlDataIn.Ok (x : DlDataIn) : Prop where
  rrbp : x.rrbp < 4
  sp : x.sp < 2
  usf : x.usf < 8
  pr : x.pr < 4
  tfi : x.tfi < 32
  fbi : x.fbi < 2
  bsn : x.bsn < 128
  e1 : x.e1 < 2
  lis : x.lis.length = 5
  entry : ∀ y ∈ x.lis, y.li < 64 ∧ y.m < 2 ∧ y.e < 2
  last : ∃ y ∈ x.lis, ¬ (y.m = 1 ∧ y.e = 0)
  data : x.data.length = 20

theorem liWrite_used : ∀ l : List LiEntry, (∀ y ∈ l, y.li < 64 ∧ y.m < 2 ∧ y.e < 2) → (∃ y ∈ l, ¬ (y.m = 1 ∧ y.e = 0)) →
    liWrite l = .ok ((usedLis l).map fun y => UInt8.ofNat (y.li * 4 + y.m * 2 + y.e)) ∧ (usedLis l).length ≤ l.length := by
  intro l
  induction l with
  | nil => intro _ ⟨y, hy, _⟩; simp at hy
  | cons x l ih =>
    intro hr ⟨y, hy, hl⟩
    have h1 := hr x List.mem_cons_self
    have hx : UInt8.ofNat (x.li % 64 * 4 + x.m % 2 * 2 + x.e % 2) = UInt8.ofNat (x.li * 4 + x.m * 2 + x.e) := by
      rw [Nat.mod_eq_of_lt h1.1, Nat.mod_eq_of_lt h1.2.1, Nat.mod_eq_of_lt h1.2.2]
    simp only [liWrite, usedLis]
    by_cases hg : x.m = 1 ∧ x.e = 0
    · rcases List.mem_cons.1 hy with rfl | hy
      · exact absurd hg hl
      · obtain ⟨e, hle⟩ := ih (fun z hz => hr z (List.mem_cons_of_mem _ hz)) ⟨y, hy, hl⟩
        rw [if_pos hg, if_pos hg, e, hx]
        exact ⟨rfl, by simp; omega⟩
    · rw [if_neg hg, if_neg hg, hx]
      exact ⟨rfl, by simp⟩

/-- **C174.** Every data block a user of the library has put into octets is taken by a mobile station for what the user said: TFI,
final block indicator, block number, extension bit, as payload the length indicators up to the last one and as much of the data
as there is room for, and polling. -/
theorem c174 (x : DlDataIn) (ok : DlDataIn.Ok x) (fn : Nat) (hf : fn % 104 ≠ 12) :
    ∃ d lis, encodeDownlinkData x = .ok d ∧ d.length = 23 ∧ lis = (if x.e1 = 0 then usedLis x.lis else []) ∧
      pdchDataInd fn d = .ok (.data x.tfi x.bsn
        ⟨decide (x.e1 = 1), decide (x.fbi = 1), lis.map (fun y => UInt8.ofNat (y.li * 4 + y.m * 2 + y.e)) ++ x.data.take (20 - lis.length)⟩
        (if x.sp = 1 then some x.rrbp else none)) := by
  obtain ⟨hw, hl⟩ := liWrite_used x.lis ok.entry ok.last
  have h5 := ok.lis
  have h20 := ok.data
  obtain ⟨lis, hlis⟩ : ∃ lis, lis = (if x.e1 = 0 then usedLis x.lis else []) := ⟨_, rfl⟩
  have hlen : lis.length ≤ 5 := by
    rw [hlis]; split
    · omega
    · simp
  have hwr : lisWrite x = .ok (lis.map fun y => UInt8.ofNat (y.li * 4 + y.m * 2 + y.e)) := by
    rw [hlis]; unfold lisWrite; split
    · exact hw
    · rfl
  have o1 := ok.rrbp
  have o2 := ok.sp
  have o3 := ok.usf
  have o4 := ok.pr
  have o5 := ok.tfi
  have o6 := ok.fbi
  have o7 := ok.bsn
  have o8 := ok.e1
  have tb : ∀ n : Nat, n < 2 → (decide (n = 1)).toNat = n := by
    intro n hn
    have : n = 0 ∨ n = 1 := by omega
    rcases this with rfl | rfl <;> rfl
  let h : DlHead := ⟨x.usf, decide (x.sp = 1), x.rrbp, x.pr, x.tfi, decide (x.fbi = 1), x.bsn, decide (x.e1 = 1)⟩
  have hoct : h.octets = [UInt8.ofNat (0 * 64 + x.rrbp % 4 * 16 + x.sp % 2 * 8 + x.usf % 8), UInt8.ofNat (x.pr % 4 * 64 + x.tfi % 32 * 2 + x.fbi % 2),
      UInt8.ofNat (x.bsn % 128 * 2 + x.e1 % 2)] := by
    show [UInt8.ofNat (x.rrbp * 16 + (decide (x.sp = 1)).toNat * 8 + x.usf), UInt8.ofNat (x.pr * 64 + x.tfi * 2 + (decide (x.fbi = 1)).toNat),
      UInt8.ofNat (x.bsn * 2 + (decide (x.e1 = 1)).toNat)] = _
    rw [tb _ o2, tb _ o6, tb _ o8, Nat.mod_eq_of_lt o1, Nat.mod_eq_of_lt o2, Nat.mod_eq_of_lt o3, Nat.mod_eq_of_lt o4, Nat.mod_eq_of_lt o5,
      Nat.mod_eq_of_lt o6, Nat.mod_eq_of_lt o7, Nat.mod_eq_of_lt o8, Nat.zero_mul, Nat.zero_add]
  have hpl : (lis.map (fun y => UInt8.ofNat (y.li * 4 + y.m * 2 + y.e)) ++ x.data.take (20 - lis.length)).length = 20 := by
    simp; omega
  have henc : encodeDownlinkData x = .ok (dlAir h (lis.map (fun y => UInt8.ofNat (y.li * 4 + y.m * 2 + y.e)) ++ x.data.take (20 - lis.length)) []) := by
    unfold encodeDownlinkData
    simp only
    rw [hwr]
    simp only [Res.bind_ok]
    rw [← hoct]
    have hn : (23 + 4294967296 - (h.octets ++ lis.map fun y => UInt8.ofNat (y.li * 4 + y.m * 2 + y.e)).length) % 4294967296 = 20 - lis.length := by
      rw [List.length_append, List.length_map, show h.octets.length = 3 from rfl]; omega
    rw [hn, if_pos (by omega)]
    unfold rdN
    rw [if_pos (by omega)]
    simp only [Res.bind_ok, List.drop_zero, dlAir, List.append_nil, List.append_assoc]
  refine ⟨_, lis, henc, ?_, hlis, ?_⟩
  · unfold dlAir
    rw [List.length_append, List.length_append, hpl]; rfl
  · rw [c171 fn h _ [] ⟨o3, o1, o4, o5, o7⟩ (Or.inl ⟨hpl, rfl⟩) hf]
    show Res.ok (PdchIn.data x.tfi x.bsn _ (if decide (x.sp = 1) = true then some x.rrbp else none)) = _
    simp only [decide_eq_true_eq]
    rfl

/-- Two length indicators; the block polls. -/
example : DlDataIn.Ok ⟨2, 1, 7, 0, 5, 1, 77, 0, [⟨3, 1, 0⟩, ⟨8, 0, 1⟩, ⟨0, 0, 0⟩, ⟨0, 0, 0⟩, ⟨0, 0, 0⟩], List.replicate 20 9⟩ where
  rrbp := by decide
  sp := by decide
  usf := by decide
  pr := by decide
  tfi := by decide
  fbi := by decide
  bsn := by decide
  e1 := by decide
  lis := by decide
  entry := by decide
  last := ⟨⟨8, 0, 1⟩, by decide, by decide⟩
  data := by decide

end Verif.Props
