import Verif.Csn1.Fwd
import Verif.Spec.Ccch
import Verif.Props.CsnConfine

/-!
# Lemmas about messages on the common control channel
-/
namespace Verif.Rlc
open Verif.Csn1 Verif.Spec

theorem lhAt_isH (v : List Bool) (i : Nat) : lhAt v i = if isH v i then 1 else 0 := by
  unfold lhAt isH
  have hp : padAt i = if padBit i then 1 else 0 := by
    unfold padAt padBit
    have : i % 8 < 8 := Nat.mod_lt _ (by decide)
    have h : ∀ r : Fin 8, bitAt [false, false, true, false, true, false, true, true] r.val =
      if decide (r.val = 2 ∨ r.val = 4 ∨ r.val = 6 ∨ r.val = 7) then 1 else 0 := by decide
    exact h ⟨_, this⟩
  have hb : bitAt v i = if v.getD i false then 1 else 0 := by
    unfold bitAt
    rw [List.getD_eq_getElem?_getD]
    cases v[i]? with
    | none => simp
    | some b => cases b <;> simp
  rw [hp, hb]
  cases v.getD i false <;> cases padBit i <;> simp

theorem lhAt_lt (v : List Bool) (i : Nat) : lhAt v i < 256 := by
  unfold lhAt; split <;> decide

/-- An optional field of one line. -/
theorem opt1_fwd {v p base off sz o1 z1 ds} {b1 : Nat} {s : CSt} (ha : s.bo = s.rd) (hb : b1 ≤ 8)
    (hr : (b1 : Int) + 2 ≤ s.rem) (hs : p.store base off sz 0 1 = true) (hs1 : p.store base o1 z1 0 1 = true) :
    ∃ s' : CSt, decL v p base (.nextExist true off sz 1 false :: .uint o1 z1 b1 false :: ds) {} s = decL v p base ds {} s' ∧
      s'.rd = optLh v b1 s.rd ∧ s'.bo = s'.rd ∧ s'.rem + s'.rd = s.rem + s.rd := by
  rw [nextLh_fwd (by rw [ha]) (by omega) hs]
  rw [lhAt_isH]
  unfold optLh
  by_cases h : isH v s.rd
  · rw [if_pos h, if_neg (by decide), if_pos h, uint_fwd hb (by simp only [put1_rem]; omega) hs1]
    refine ⟨_, rfl, ?_, ?_, ?_⟩ <;> simp only [put1_rd, put1_bo, put1_rem] <;> omega
  · rw [if_neg h, if_pos rfl, if_neg h, decL_skip]
    refine ⟨_, rfl, ?_, ?_, ?_⟩ <;> simp only [put1_rd, put1_bo, put1_rem] <;> omega

/-- An optional field of two lines. -/
theorem opt2_fwd {v p base off sz o1 z1 o2 z2 ds} {b1 b2 : Nat} {s : CSt} (ha : s.bo = s.rd) (hb : b1 ≤ 8) (hb2 : b2 ≤ 8)
    (hr : (b1 : Int) + b2 + 2 ≤ s.rem) (hs : p.store base off sz 0 1 = true) (hs1 : p.store base o1 z1 0 1 = true)
    (hs2 : p.store base o2 z2 0 1 = true) :
    ∃ s' : CSt, decL v p base (.nextExist true off sz 2 false :: .uint o1 z1 b1 false :: .uint o2 z2 b2 false :: ds) {} s =
      decL v p base ds {} s' ∧
      s'.rd = optLh v (b1 + b2) s.rd ∧ s'.bo = s'.rd ∧ s'.rem + s'.rd = s.rem + s.rd := by
  rw [nextLh_fwd (by rw [ha]) (by omega) hs]
  rw [lhAt_isH]
  unfold optLh
  by_cases h : isH v s.rd
  · rw [if_pos h, if_neg (by decide), if_pos h, uint_fwd hb (by simp only [put1_rem]; omega) hs1,
      uint_fwd hb2 (by simp only [put1_rem]; omega) hs2]
    refine ⟨_, rfl, ?_, ?_, ?_⟩ <;> simp only [put1_rd, put1_bo, put1_rem] <;> omega
  · rw [if_neg h, if_pos rfl, if_neg h, show (2 : Nat) = 1 + 1 from rfl, decL_skip, show (1 : Nat) = 0 + 1 from rfl, decL_skip]
    refine ⟨_, rfl, ?_, ?_, ?_⟩ <;> simp only [put1_rd, put1_bo, put1_rem] <;> omega

theorem optLh_le (v : List Bool) (w i : Nat) : optLh v w i ≤ i + 1 + w := by
  unfold optLh; split <;> omega

/-- The P1 rest octets without group call information. -/
theorem p1_decode (v : List Bool) (n : Nat) (m : Mem) (hn : 2 ≤ n) (hg : isH v (p1GroupCall v) = false) :
    ∃ t, decodeRest (.object 44) t_P1_Rest_Octets v n m = .ok t ∧
      t.byte 40 = (if isH v (p1GroupCall v + 1) then 1 else 0) ∧
      t.byte 41 = (if isH v (p1GroupCall v + 2) then 1 else 0) := by
  unfold decodeRest t_P1_Rest_Octets
  have hrem : (16 : Int) ≤ ((8 * n : Nat) : Int) := by omega
  generalize hN : ((8 * n : Nat) : Int) = N at hrem
  simp only [show (8 * (n : Int)) = N by omega]
  obtain ⟨s1, e1, r1, b1, m1⟩ := opt2_fwd (v := v) (p := .object 44) (base := 0) (off := 0) (sz := 1) (o1 := 1) (z1 := 1)
    (b1 := 2) (o2 := 2) (z2 := 1) (b2 := 1) (ds := [.nextExist true 3 1 1 false,
    .uint 4 1 3 false, .nextExist true 5 1 1 false, .uint 6 1 3 false, .nextExist true 7 1 1 false,
    .typ 8 false t_Group_Call_information, .uintLh 40 1 1, .uintLh 41 1 1, .padding])
    (s := { mem := m, rd := 0, bo := 0, rem := N })
    rfl (by decide) (by decide) (by dsimp only; omega) rfl rfl rfl
  rw [e1]
  dsimp only at r1 m1
  simp only [Nat.reduceAdd] at r1
  have l1 := optLh_le v 3 0
  obtain ⟨s2, e2, r2, b2, m2⟩ := opt1_fwd (v := v) (p := .object 44) (base := 0) (off := 3) (sz := 1) (o1 := 4) (z1 := 1) (b1 := 3)
    (ds := [.nextExist true 5 1 1 false, .uint 6 1 3 false, .nextExist true 7 1 1 false,
    .typ 8 false t_Group_Call_information, .uintLh 40 1 1, .uintLh 41 1 1, .padding]) b1 (by decide) (by omega) rfl rfl
  rw [e2]
  have l2 := optLh_le v 3 s1.rd
  obtain ⟨s3, e3, r3, b3, m3⟩ := opt1_fwd (v := v) (p := .object 44) (base := 0) (off := 5) (sz := 1) (o1 := 6) (z1 := 1) (b1 := 3)
    (ds := [.nextExist true 7 1 1 false,
    .typ 8 false t_Group_Call_information, .uintLh 40 1 1, .uintLh 41 1 1, .padding]) b2 (by decide) (by omega) rfl rfl
  rw [e3]
  have l3 := optLh_le v 3 s2.rd
  have hpos : s3.rd = p1GroupCall v := by rw [r3, r2, r1]; rfl
  rw [nextLh_fwd (by rw [b3]) (by omega) rfl, lhAt_isH, hpos, hg]
  simp only [Bool.false_eq_true, ite_false, ite_true]
  rw [show (1 : Nat) = 0 + 1 from rfl, decL_skip]
  rw [uintLh1_fwd (by simp only [put1_rd, put1_bo, b3]) (by simp only [put1_rem]; omega) rfl]
  rw [uintLh1_fwd (by simp only [put1_rd, put1_bo, b3]) (by simp only [put1_rem]; omega) rfl]
  obtain ⟨t, et, mt⟩ := padding_fwd (v := v) (p := .object 44) (base := 0) (s := ((s3.put1 (0 + 7) 0 (0 + 1)).put1 (0 + 40)
    (lhAt v (s3.put1 (0 + 7) 0 (0 + 1)).rd) 1).put1 (0 + 41)
    (lhAt v ((s3.put1 (0 + 7) 0 (0 + 1)).put1 (0 + 40) (lhAt v (s3.put1 (0 + 7) 0 (0 + 1)).rd) 1).rd) 1)
    (by simp only [put1_rem]; omega)
  refine ⟨t, et, ?_, ?_⟩
  · rw [byte_congr mt, put1_byte_ne (by decide), put1_byte_eq (lhAt_lt _ _)]
    simp only [put1_rd, hpos, lhAt_isH]
  · rw [byte_congr mt, put1_byte_eq (lhAt_lt _ _)]
    simp only [put1_rd, hpos, lhAt_isH]

/-- The P2 rest octets. -/
theorem p2_decode (v : List Bool) (n : Nat) (m : Mem) (hn : 3 ≤ n) :
    ∃ t, decodeRest (.object 12) t_P2_Rest_Octets v n m = .ok t ∧
      t.byte 11 = (if isH v (p2Indication v) then 1 else 0) := by
  unfold decodeRest t_P2_Rest_Octets
  have hrem : (24 : Int) ≤ ((8 * n : Nat) : Int) := by omega
  generalize hN : ((8 * n : Nat) : Int) = N at hrem
  simp only [show (8 * (n : Int)) = N by omega]
  obtain ⟨s0, e0, r0, b0, m0⟩ := opt1_fwd (v := v) (p := .object 12) (base := 0) (off := 0) (sz := 1) (o1 := 1) (z1 := 1)
    (b1 := 2) (ds := [.nextExist true 2 1 2 false, .uint 3 1 2 false, .uint 4 1 1 false, .nextExist true 5 1 1 false,
    .uint 6 1 3 false, .nextExist true 7 1 1 false, .uint 8 1 3 false, .nextExist true 9 1 1 false, .uint 10 1 3 false,
    .uintLh 11 1 1, .padding])
    (s := { mem := m, rd := 0, bo := 0, rem := N }) rfl (by decide) (by dsimp only; omega) rfl rfl
  rw [e0]
  dsimp only at r0 m0
  have l0 := optLh_le v 2 0
  obtain ⟨s1, e1, r1, b1, m1⟩ := opt2_fwd (v := v) (p := .object 12) (base := 0) (off := 2) (sz := 1) (o1 := 3) (z1 := 1)
    (b1 := 2) (o2 := 4) (z2 := 1) (b2 := 1) (ds := [.nextExist true 5 1 1 false,
    .uint 6 1 3 false, .nextExist true 7 1 1 false, .uint 8 1 3 false, .nextExist true 9 1 1 false, .uint 10 1 3 false,
    .uintLh 11 1 1, .padding])
    b0 (by decide) (by decide) (by omega) rfl rfl rfl
  rw [e1]
  have l1 := optLh_le v 3 s0.rd
  simp only [Nat.reduceAdd] at r1
  obtain ⟨s2, e2, r2, b2, m2⟩ := opt1_fwd (v := v) (p := .object 12) (base := 0) (off := 5) (sz := 1) (o1 := 6) (z1 := 1) (b1 := 3)
    (ds := [.nextExist true 7 1 1 false, .uint 8 1 3 false, .nextExist true 9 1 1 false, .uint 10 1 3 false,
    .uintLh 11 1 1, .padding]) b1 (by decide) (by omega) rfl rfl
  rw [e2]
  have l2 := optLh_le v 3 s1.rd
  obtain ⟨s3, e3, r3, b3, m3⟩ := opt1_fwd (v := v) (p := .object 12) (base := 0) (off := 7) (sz := 1) (o1 := 8) (z1 := 1) (b1 := 3)
    (ds := [.nextExist true 9 1 1 false, .uint 10 1 3 false,
    .uintLh 11 1 1, .padding]) b2 (by decide) (by omega) rfl rfl
  rw [e3]
  have l3 := optLh_le v 3 s2.rd
  obtain ⟨s4, e4, r4, b4, m4⟩ := opt1_fwd (v := v) (p := .object 12) (base := 0) (off := 9) (sz := 1) (o1 := 10) (z1 := 1) (b1 := 3)
    (ds := [.uintLh 11 1 1, .padding]) b3 (by decide) (by omega) rfl rfl
  rw [e4]
  have l4 := optLh_le v 3 s3.rd
  have hpos : s4.rd = p2Indication v := by rw [r4, r3, r2, r1, r0]; rfl
  rw [uintLh1_fwd (by simp only [b4]) (by omega) rfl]
  obtain ⟨t, et, mt⟩ := padding_fwd (v := v) (p := .object 12) (base := 0) (s := s4.put1 (0 + 11) (lhAt v s4.rd) 1)
    (by simp only [put1_rem]; omega)
  refine ⟨t, et, ?_⟩
  rw [byte_congr mt, put1_byte_eq (lhAt_lt _ _), hpos, lhAt_isH]

end Verif.Rlc

namespace Verif.Rlc
open Verif.Csn1 Verif.Spec

theorem rd_mid {b pre post : Octets} {x : UInt8} {i : Nat} (h : b = pre ++ x :: post) (hi : i = pre.length) :
    rd b i = .ok x.toNat := by
  subst h hi; simp [rd]

theorem rdN_mid {b pre mid post : Octets} {i n : Nat} (h : b = pre ++ (mid ++ post)) (hi : i = pre.length)
    (hn : n = mid.length) : rdN b i n = .ok mid := by
  subst h hi hn; simp [rdN]

/-- Whatever is found once is all there is when nothing else matches. -/
theorem find_filter {α : Type} (p : α → Bool) : ∀ l : List α, l.Pairwise (fun a b => ¬ (p a = true ∧ p b = true)) →
    (l.find? p).toList = l.filter p
  | [], _ => rfl
  | a :: l, h => by
    rw [List.pairwise_cons] at h
    by_cases ha : p a
    · rw [List.find?_cons_of_pos ha, List.filter_cons_of_pos ha]
      have : l.filter p = [] := by
        rw [List.filter_eq_nil_iff]
        intro b hb hpb
        exact h.1 b hb ⟨ha, hpb⟩
      rw [this]; rfl
    · rw [List.find?_cons_of_neg ha, List.filter_cons_of_neg ha]
      exact find_filter p l h.2

/-- Only one mobile station has the identity. -/
def OneHas (es : List CcchGre) (id : MobId) : Prop :=
  es.Pairwise fun g g' => ¬ (HasId g.names id ∧ HasId g'.names id)

/-- An identity the handler pages correctly. -/
def Pageable (es : List CcchGre) (id : MobId) : Prop := id ≠ .other ∧ id ≠ .tmsi 0xffffffff ∧ OneHas es id

theorem find_names (es : List CcchGre) (p : GreNames → Bool) :
    ((es.map CcchGre.names).find? p) = (es.find? fun g => p g.names).map CcchGre.names := by
  induction es with
  | nil => rfl
  | cons g es ih =>
    rw [List.map_cons]
    by_cases h : p g.names
    · rw [List.find?_cons_of_pos h, List.find?_cons_of_pos (by exact h)]; rfl
    · rw [List.find?_cons_of_neg h, List.find?_cons_of_neg (by exact h), ih]

theorem toList_map {α β : Type} (o : Option α) (f : α → β) : (o.map f).toList = o.toList.map f := by
  cases o <;> rfl

theorem pageOne_eq {s : CcchSt} {id : MobId} (h : Pageable s.es id) : pageOne s id = some (pagesFor s.es id) := by
  obtain ⟨h1, h2, h3⟩ := h
  have hf := find_filter (fun g => decide (HasId g.names id)) s.es (by
    refine h3.imp ?_
    intro a b hab ⟨ha, hb⟩
    exact hab ⟨of_decide_eq_true ha, of_decide_eq_true hb⟩)
  cases id with
  | other => exact absurd rfl h1
  | imsi i =>
    unfold pageOne findImsi CcchSt.dir pagesFor
    dsimp only
    rw [← hf, find_names, toList_map, List.map_map]
    congr 4
    funext g
    rw [Bool.eq_iff_iff, decide_eq_true_iff]; simp [HasId]
  | tmsi t =>
    have ht : t ≠ 0xffffffff := fun h => h2 (by rw [h])
    unfold pageOne findPtmsi CcchSt.dir pagesFor
    dsimp only
    rw [← hf, find_names, toList_map, List.map_map]
    congr 4
    funext g
    rw [Bool.eq_iff_iff, decide_eq_true_iff]; simp [HasId, ht]

theorem pagesFor_other (es : List CcchGre) : pagesFor es .other = [] := by
  unfold pagesFor
  have : es.filter (fun g => decide (HasId g.names .other)) = [] := by
    rw [List.filter_eq_nil_iff]; intro g _ h; exact (of_decide_eq_true h)
  rw [this]; rfl

/-- The rest octets of a message at its end, not too many. -/
theorem decodeAt_end {b pre rest : Octets} (t : List Csn) (size : Nat) (m : Mem) (h : b = pre ++ rest) {i n : Nat}
    (hi : i = pre.length) (hn : n = rest.length) (hl : rest.length ≤ 23) :
    decodeAt b i n t size m = .ok (decodeRest (.object size) t (octBits rest) rest.length m) := by
  unfold decodeAt
  subst hn
  rw [if_neg (by omega), rdN_mid (mid := rest) (post := []) (by rw [List.append_nil]; exact h) hi rfl]

/-- The rest octets of a paging request type 1. -/
theorem page1Rest_out {b pre rest : Octets} {i : Nat} (s : CcchSt) (id1 id2 : MobId) (h : b = pre ++ rest)
    (hi : i = pre.length) (hb : b.length = 23) (hr : 2 ≤ rest.length)
    (hg : isH (octBits rest) (p1GroupCall (octBits rest)) = false)
    (h1 : isH (octBits rest) (p1GroupCall (octBits rest) + 1) = true → Pageable s.es id1)
    (h2 : id2 = .other ∨ Pageable s.es id2) :
    ∃ r, page1Rest s b i id1 id2 = .ok r ∧ r.st = s ∧
      r.out = (if isH (octBits rest) (p1GroupCall (octBits rest) + 1) then pagesFor s.es id1 else []) ++
        (if isH (octBits rest) (p1GroupCall (octBits rest) + 2) then pagesFor s.es id2 else []) := by
  have hlen : b.length = pre.length + rest.length := by rw [h, List.length_append]
  unfold page1Rest macBlockLen
  rw [if_neg (by omega), decodeAt_end _ _ _ h hi (by omega) (by omega)]
  obtain ⟨t, et, t1, t2⟩ := p1_decode (octBits rest) rest.length (fun _ => 0) hr hg
  show ∃ r, (match decodeRest _ _ _ _ _ with | .ub f => _ | .fail e => _ | .ok t => _) = Res.ok r ∧ _
  rw [et]
  refine ⟨_, rfl, ?_, ?_⟩
  · unfold page1Out
    dsimp only
    split
    · split <;> rfl
    · rfl
  · have hsec : (pageOne s id2).getD [] = pagesFor s.es id2 := by
      rcases h2 with rfl | h2
      · rw [pagesFor_other]; rfl
      · rw [pageOne_eq h2]; rfl
    unfold page1Out
    rw [t1, t2, hsec]
    by_cases hp : isH (octBits rest) (p1GroupCall (octBits rest) + 1) = true
    · rw [if_pos hp, if_pos rfl, if_pos hp, pageOne_eq (h1 hp)]
      dsimp only
      by_cases hq : isH (octBits rest) (p1GroupCall (octBits rest) + 2) = true
      · rw [if_pos hq, if_pos rfl, if_pos hq]
      · rw [if_neg hq, if_neg (by decide), if_neg hq]
    · rw [if_neg hp, if_neg (by decide), if_neg hp]
      dsimp only
      by_cases hq : isH (octBits rest) (p1GroupCall (octBits rest) + 2) = true
      · rw [if_pos hq, if_pos rfl, if_pos hq]; rfl
      · rw [if_neg hq, if_neg (by decide), if_neg hq]; rfl

end Verif.Rlc
