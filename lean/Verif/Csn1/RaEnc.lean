import Verif.Csn1.RaDec

/-!
# Lemmas: writing capabilities
-/
namespace Verif.Csn1

open Spec

/-- The parts of one entry. -/
theorem entry_lay {m : Mem} {b : Nat} {e : RaEntry} (he : e.Ok) (hm : e.Filled m b) :
    ∃ l : List Item, (∀ acc, layL m b t_MS_RA_capability_value {} acc = some (acc ++ l)) ∧ code m l = e.bits ∧
      (∀ i ∈ l, i.Fits m) ∧ skew l = 0 := by
  obtain ⟨l, l1, l2, _, l4, l5⟩ := (content_grps (b := b + 1) hm.content he.fits).flatten
  have l1 := l1 [] []
  rw [List.append_nil, List.nil_append, ← content_groups] at l1
  have l1 : layL m (b + 1) t_Content {} [] = some l := by
    rw [l1]; unfold layL; rw [if_pos ⟨rfl, rfl⟩]
  have hbody : e.body = code m l := by
    unfold RaEntry.body
    rw [hm.later, hm.known, List.append_nil, l2, List.take_of_length_le (Nat.le_refl 39)]
  have hsz : e.body.length = size l := by rw [hbody, code_length]
  have hp : 0 < size l := by
    rw [← code_length m, l2]
    unfold contentFields
    rw [List.flatten_cons, List.length_append, natBits_length]
    omega
  have ht := he.tech
  refine ⟨[.con 4 e.tech, .implied b (m b % 256)] ++ .con 7 (size l) :: l, fun acc => ?_, ?_, fun i hi => ?_, ?_⟩
  · unfold t_MS_RA_capability_value
    conv => lhs; unfold layL
    rw [if_neg (by simp)]
    dsimp only
    have hS : ∀ acc, layD m false b (.serialize 1 7 t_Content) acc = some (acc ++ .con 7 (size l) :: l) := by
      intro acc
      unfold layD
      rw [if_neg (by simp)]
      rw [l1]
      show (if 0 < size l then _ else _) = _
      rw [if_pos hp]
    have : layD m false b (.choice 0 1 s_MS_RA_capability_value_Choice c_MS_RA_capability_value_Choice) acc =
        some (acc ++ ([.con 4 e.tech, .implied b (m b % 256)] ++ .con 7 (size l) :: l)) := by
      unfold layD
      rw [if_neg (by simp), Nat.add_zero]
      have e1 := hm.tech
      rw [e1]
      generalize e.tech = k at *
      unfold s_MS_RA_capability_value_Choice c_MS_RA_capability_value_Choice
      obtain rfl | rfl | rfl | rfl | rfl | rfl | rfl | rfl | rfl | rfl | rfl | rfl | rfl | rfl : k = 0 ∨ k = 1 ∨ k = 2 ∨ k = 3 ∨ k = 4 ∨ k = 5 ∨
        k = 6 ∨ k = 7 ∨ k = 8 ∨ k = 9 ∨ k = 10 ∨ k = 11 ∨ k = 12 ∨ k = 13 := by omega
      all_goals simp [layC, apart, hS, e1]
    rw [this]
    show layL m b [] {} _ = _
    unfold layL
    rw [if_pos ⟨rfl, rfl⟩]
  · rw [code_append, code_cons, code_cons, code_nil, code_cons, List.append_nil]
    unfold RaEntry.bits
    rw [hsz, hbody]
    simp [Item.code]
  · rcases List.mem_append.mp hi with hi | hi
    · rcases List.mem_cons.mp hi with rfl | hi
      · show e.tech < 2 ^ 4; omega
      · rw [List.mem_singleton] at hi; subst hi; exact rfl
    · rcases List.mem_cons.mp hi with rfl | hi
      · show size l < 2 ^ 7
        have := he.len
        omega
      · exact l4 i hi
  · rw [skew_append, show Item.con 7 (size l) :: l = [.con 7 (size l)] ++ l from rfl, skew_append, l5]; rfl

theorem list_lay {m : Mem} : ∀ (l : List RaEntry) (i : Nat) (acc : List Item), l ≠ [] → (∀ e ∈ l, e.Ok) →
    (∀ (j : Nat) (e : RaEntry), l[j]? = some e → e.Filled m (1 + (i + j) * 69)) →
    ∃ L : List Item, layIter (fun i acc => layL m (0 + 1 + i * 69) t_MS_RA_capability_value {}
        (if i = 0 then acc else acc ++ [.con 1 1])) l.length i acc = some (acc ++ L) ∧
      code m L ++ [false] = (if i = 0 then [] else [true]) ++ raBits l ∧ (∀ i ∈ L, i.Fits m) ∧ skew L = 0
  | [], _, _, h, _, _ => absurd rfl h
  | e :: l, i, acc, _, hok, hf => by
    obtain ⟨x, x1, x2, x3, x4⟩ := entry_lay (hok e (List.mem_cons_self ..)) (hf 0 e rfl)
    have tg : ∃ T : List Item, (∀ acc : List Item, (if i = 0 then acc else acc ++ [.con 1 1]) = acc ++ T) ∧
        code m T = (if i = 0 then [] else [true]) ∧ (∀ j ∈ T, j.Fits m) ∧ skew T = 0 := by
      by_cases h : i = 0
      · exact ⟨[], fun acc => by rw [if_pos h, List.append_nil], by rw [if_pos h]; rfl, by simp, rfl⟩
      · refine ⟨[.con 1 1], fun acc => by rw [if_neg h], by rw [if_neg h]; rfl, fun j hj => ?_, rfl⟩
        rw [List.mem_singleton] at hj; subst hj
        show 1 < 2 ^ 1
        decide
    obtain ⟨T, T1, T2, T3, T4⟩ := tg
    rw [List.length_cons]
    unfold layIter
    rw [T1, show 0 + 1 + i * 69 = 1 + (i + 0) * 69 by omega, x1, Option.bind_some]
    cases l with
    | nil =>
      refine ⟨T ++ x, ?_, ?_, fun j hj => ?_, ?_⟩
      · show some _ = _; rw [List.append_assoc]
      · rw [code_append, x2, T2, List.append_assoc]; rfl
      · rcases List.mem_append.mp hj with hj | hj
        · exact T3 j hj
        · exact x3 j hj
      · rw [skew_append, T4, x4]
    | cons e2 l =>
      obtain ⟨L, q1, q2, q3, q4⟩ := list_lay (e2 :: l) (i + 1) (acc ++ T ++ x) (by simp)
        (fun e he => hok e (List.mem_cons_of_mem _ he)) (fun j e he => by
          have := hf (j + 1) e he
          rw [show i + (j + 1) = i + 1 + j by omega] at this
          exact this)
      refine ⟨T ++ x ++ L, ?_, ?_, fun j hj => ?_, ?_⟩
      · rw [q1]; simp
      · rw [code_append, List.append_assoc, q2, code_append, x2, T2, if_neg (Nat.succ_ne_zero i), List.append_assoc]
        rfl
      · rcases List.mem_append.mp hj with hj | hj
        · rcases List.mem_append.mp hj with hj | hj
          · exact T3 j hj
          · exact x3 j hj
        · exact q3 j hj
      · rw [skew_append, skew_append, T4, x4, q4]

theorem raParts_of {m : Mem} {l : List RaEntry} (hne : l ≠ []) (hl : l.length ≤ 11) (hok : ∀ e ∈ l, e.Ok)
    (hn : m 0 % 256 = l.length) (hf : ∀ (j : Nat) (e : RaEntry), l[j]? = some e → e.Filled m (1 + j * 69)) :
    ∃ L, raParts m = some L ∧ code m L = raBits l ∧ (∀ i ∈ L, i.Fits m) ∧ skew L = 0 := by
  obtain ⟨L, h1, h2, h3, h4⟩ := list_lay (m := m) l 0 [] hne hok fun j e he => by rw [Nat.zero_add]; exact hf j e he
  rw [if_pos rfl, List.nil_append] at h2
  have hpos : 0 < l.length := List.length_pos_iff.mpr hne
  refine ⟨L ++ [.con 1 0, .implied (0 + 0) l.length], ?_, ?_, fun i hi => ?_, ?_⟩
  · unfold raParts
    conv => lhs; unfold layL
    rw [if_neg (by simp)]
    dsimp only
    have : layD m false 0 (.recTArr1 1 759 69 11 0 t_MS_RA_capability_value) [] =
        some (L ++ [.con 1 0, .implied (0 + 0) l.length]) := by
      unfold layD
      dsimp only
      rw [Nat.add_zero, hn, if_pos ⟨rfl, hpos, hl, by omega⟩, h1]
      rfl
    rw [this]
    show layL m 0 [] {} _ = _
    unfold layL
    rw [if_pos ⟨rfl, rfl⟩]
  · rw [code_append, ← h2]; rfl
  · rcases List.mem_append.mp hi with hi | hi
    · exact h3 i hi
    · rcases List.mem_cons.mp hi with rfl | hi
      · show 0 < 2 ^ 1; decide
      · rw [List.mem_singleton] at hi; subst hi; exact hn
  · rw [skew_append, h4]; rfl

theorem raCap_enc {m : Mem} {l : List RaEntry} {n : Nat} {vec : Nat → Bool} (hne : l ≠ []) (hl : l.length ≤ 11)
    (hok : ∀ e ∈ l, e.Ok) (hn : m 0 % 256 = l.length)
    (hf : ∀ (j : Nat) (e : RaEntry), l[j]? = some e → e.Filled m (1 + j * 69)) (hs : (raBits l).length ≤ 8 * n) :
    ∃ s, encodeRaCap m n vec = .ok s ∧ s.bits (8 * n) = raBits l ++ raPadding n (raBits l).length := by
  obtain ⟨L, h1, h2, h3, h4⟩ := raParts_of hne hl hok hn hf
  have hz : size L = (raBits l).length := by rw [← code_length m, h2]
  obtain ⟨s, s1, s2, s3⟩ := encodeRaCap_parts (n := n) (vec := vec) h1 h3 (by omega)
  refine ⟨s, s1, ?_⟩
  apply List.ext_getElem?
  intro i
  by_cases hi : i < size L
  · have hg : (raBits l)[i]? = some ((raBits l)[i]'(by omega)) := List.getElem?_eq_getElem _
    rw [List.getElem?_append_left (by omega), hg]
    have := s2 i _ (by rw [h2]; exact hg)
    rw [Nat.zero_add] at this
    exact this
  · rw [List.getElem?_append_right (by omega), ← hz]
    by_cases h8 : i < 8 * n
    · rw [s3 h4 i (by omega) h8]
      unfold raPadding
      rw [List.getElem?_map, List.getElem?_range (by omega), Option.map_some,
        show size L + (i - size L) = i by omega]
      congr 2
      by_cases h : i = size L
      · simp [h]
      · have : i - size L ≠ 0 := by omega
        simp [h, this]
    · unfold raPadding ESt.bits
      rw [List.getElem?_eq_none (by rw [List.length_map, List.length_range]; omega),
        List.getElem?_eq_none (by rw [List.length_map, List.length_range]; omega)]

end Verif.Csn1
