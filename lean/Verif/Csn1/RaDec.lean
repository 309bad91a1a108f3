import Verif.Csn1.RaLay

/-!
# Lemmas: reading capabilities of other releases
-/
namespace Verif.Csn1

open Spec

/-- With no bits left the lines `g` set the octet at `h` to zero. -/
def Nul (g : List Csn) (h : Nat) : Prop :=
  ∀ (v : List Bool) (b : Nat) (ds : List Csn) (s : CSt), s.rem = 0 →
    decL v .member b (g ++ ds) {} s = decL v .member b ds {} { s with mem := s.mem.putLe (b + h) 1 0 }

theorem Nul.uint {off bits : Nat} (hb : bits ≤ 8) (h0 : 0 < bits) : Nul [.uint off 1 bits true] off := by
  intro v b ds s hs
  have hw : uintW bits = 1 := by unfold uintW; rw [if_pos hb]
  rw [List.singleton_append]
  conv => lhs; unfold decL
  rw [if_neg (by simp)]
  dsimp only
  rw [if_neg (by omega)]
  have : decD v .member false b (.uint off 1 bits true) s = .ok { s with mem := s.mem.putLe (b + off) 1 0 } := by
    unfold decD
    rw [if_neg (by omega), if_neg (by simp), if_pos rfl, if_pos (by omega), hw]
    rfl
  rw [this, CRes.bind_ok]

theorem decL_over {v : List Bool} {b : Nat} {s : CSt} : ∀ (g ds : List Csn),
    decL v .member b (g ++ ds) { skip := g.length } s = decL v .member b ds {} s
  | [], ds => rfl
  | d :: g, ds => by
    rw [List.cons_append]
    conv => lhs; unfold decL
    rw [if_pos (by simp)]
    exact decL_over g ds

theorem Nul.opt {off n : Nat} {g : List Csn} (hn : g.length = n) : Nul (.nextExist false off 1 n true :: g) off := by
  intro v b ds s hs
  subst hn
  rw [List.cons_append]
  conv => lhs; unfold decL
  rw [if_neg (by simp)]
  dsimp only
  rw [if_neg (by omega), if_pos (by simp [hs])]
  have : wr .member b off 1 0 1 0 s = .ok { s with mem := s.mem.putLe (b + off) 1 0 } := rfl
  rw [this, CRes.bind_ok, decL_over]

inductive Nuls : List (List Csn) → List Nat → Prop
  | nil : Nuls [] []
  | cons {g gs h hs} : Nul g h → Nuls gs hs → Nuls (g :: gs) (h :: hs)

theorem Nuls.drop {gs hs} (h : Nuls gs hs) (k : Nat) : Nuls (gs.drop k) (hs.drop k) := by
  induction h generalizing k with
  | nil => rw [List.drop_nil, List.drop_nil]; exact .nil
  | cons a h ih =>
    cases k with
    | zero => exact .cons a h
    | succ k => exact ih k

theorem Nuls.dec {gs hs} (h : Nuls gs hs) {v : List Bool} {b : Nat} : ∀ {s : CSt}, s.rem = 0 →
    ∃ mem, decL v .member b gs.flatten {} s = .ok { s with mem := mem } ∧
      (∀ o ∈ hs, mem (b + o) = 0) ∧ (∀ a, (∀ o ∈ hs, a ≠ b + o) → mem a = s.mem a) := by
  induction h with
  | nil =>
    intro s hs
    exact ⟨s.mem, decL_end (by omega), fun o h => absurd h List.not_mem_nil, fun _ _ => rfl⟩
  | @cons g gs h hs a _ ih =>
    intro s hs0
    rw [List.flatten_cons, a v b _ s hs0]
    obtain ⟨mem, h1, h2, h3⟩ := ih (s := { s with mem := s.mem.putLe (b + h) 1 0 }) hs0
    refine ⟨mem, h1, fun o ho => ?_, fun x hx => ?_⟩
    · by_cases hm : o ∈ hs
      · exact h2 o hm
      · rcases List.mem_cons.mp ho with rfl | ho
        · rw [h3 _ (fun o' ho' he => hm (by have : o = o' := by omega
                                            rw [this]; exact ho'))]
          show s.mem.putLe (b + o) 1 0 (b + o) = 0
          rw [putLe_one', if_pos rfl]
        · exact absurd ho hm
    · rw [h3 x fun o ho => hx o (List.mem_cons_of_mem _ ho)]
      show s.mem.putLe (b + h) 1 0 x = _
      rw [putLe_one', if_neg (hx h (List.mem_cons_self ..))]

theorem content_nuls : Nuls contentGroups.tail contentHeads.tail := by
  have u : ∀ o bits, bits ≤ 8 → 0 < bits → Nul [.uint o 1 bits true] o := fun o bits a b => Nul.uint a b
  exact .cons (.opt rfl) <| .cons (u 3 1 (by decide) (by decide)) <| .cons (u 4 1 (by decide) (by decide)) <|
    .cons (u 5 1 (by decide) (by decide)) <| .cons (u 6 1 (by decide) (by decide)) <| .cons (.opt rfl) <| .cons (.opt rfl) <|
    .cons (u 28 1 (by decide) (by decide)) <| .cons (u 29 1 (by decide) (by decide)) <| .cons (u 30 1 (by decide) (by decide)) <|
    .cons (u 31 1 (by decide) (by decide)) <| .cons (u 32 1 (by decide) (by decide)) <| .cons (u 33 1 (by decide) (by decide)) <|
    .cons (u 34 1 (by decide) (by decide)) <| .cons (.opt rfl) <| .cons (u 38 1 (by decide) (by decide)) <| .cons (.opt rfl) <|
    .cons (.opt rfl) <| .cons (u 43 2 (by decide) (by decide)) <| .cons (u 44 2 (by decide) (by decide)) <|
    .cons (u 45 1 (by decide) (by decide)) <| .cons (u 46 2 (by decide) (by decide)) <| .cons (u 47 1 (by decide) (by decide)) <|
    .cons (u 48 1 (by decide) (by decide)) <| .cons (.opt rfl) <| .cons (u 53 1 (by decide) (by decide)) <|
    .cons (u 54 1 (by decide) (by decide)) <| .cons (.opt rfl) <| .cons (u 58 1 (by decide) (by decide)) <|
    .cons (u 59 1 (by decide) (by decide)) <| .cons (u 60 1 (by decide) (by decide)) <| .cons (u 61 1 (by decide) (by decide)) <|
    .cons (u 62 2 (by decide) (by decide)) <| .cons (u 63 2 (by decide) (by decide)) <| .cons (u 64 1 (by decide) (by decide)) <|
    .cons (u 65 1 (by decide) (by decide)) <| .cons (u 66 2 (by decide) (by decide)) <| .cons (u 67 1 (by decide) (by decide)) .nil

/-! ## Which members a field has -/

inductive Subs : List (List Nat) → List (List Nat) → Prop
  | nil : Subs [] []
  | cons {x y xs ys} : x ⊆ y → Subs xs ys → Subs (x :: xs) (y :: ys)

theorem Subs.take {xs ys} (h : Subs xs ys) (k : Nat) : (xs.take k).flatten ⊆ (ys.take k).flatten := by
  induction h generalizing k with
  | nil => intro a ha; exact ha
  | cons a _ ih =>
    cases k with
    | zero => intro a ha; exact ha
    | succ k =>
      intro x hx
      rw [List.take_succ_cons, List.flatten_cons, List.mem_append] at hx ⊢
      rcases hx with hx | hx
      · exact Or.inl (a hx)
      · exact Or.inr (ih k hx)

theorem ifSet_sub {x : Nat} {l l' : List Nat} (h : l ⊆ l') : ifSet x l ⊆ ifSet 1 l' := by
  unfold ifSet
  split
  · exact List.nil_subset _
  · exact h

theorem head_sub {h x : Nat} {l l' : List Nat} (s : l ⊆ l') : (h :: ifSet x l) ⊆ (h :: ifSet 1 l') :=
  List.cons_subset_cons h (ifSet_sub s)

theorem append_sub {a b c d : List Nat} (h : a ⊆ c) (h' : b ⊆ d) : a ++ b ⊆ c ++ d := by
  intro x hx
  rcases List.mem_append.mp hx with hx | hx
  · exact List.mem_append_left _ (h hx)
  · exact List.mem_append_right _ (h' hx)

theorem multislot_subs (f : Nat → Nat) (a : Nat) : multislotMembers f a ⊆ multislotMembers (fun _ => 1) a := by
  unfold multislotMembers
  have r : ∀ l : List Nat, l ⊆ l := fun l => List.Subset.refl l
  exact append_sub (append_sub (append_sub (append_sub (append_sub (head_sub (r _)) (head_sub (r _))) (head_sub (r _)))
    (head_sub (r _))) (head_sub (r _))) (head_sub (append_sub (r _) (ifSet_sub (r _))))

theorem members_subs (f : Nat → Nat) : Subs (contentMembers f) (contentMembers fun _ => 1) := by
  have r : ∀ l : List Nat, l ⊆ l := fun l => List.Subset.refl l
  unfold contentMembers
  exact .cons (r _) <| .cons (head_sub (r _)) <| .cons (r _) <| .cons (r _) <| .cons (r _) <| .cons (r _) <|
    .cons (head_sub (multislot_subs _ _)) <| .cons (head_sub (r _)) <| .cons (r _) <| .cons (r _) <| .cons (r _) <|
    .cons (r _) <| .cons (r _) <| .cons (r _) <| .cons (r _) <| .cons (head_sub (r _)) <| .cons (r _) <|
    .cons (head_sub (r _)) <| .cons (head_sub (r _)) <| .cons (r _) <| .cons (r _) <| .cons (r _) <| .cons (r _) <|
    .cons (r _) <| .cons (r _) <| .cons (head_sub (append_sub (r _) (ifSet_sub (r _)))) <| .cons (r _) <| .cons (r _) <|
    .cons (head_sub (r _)) <| .cons (r _) <| .cons (r _) <| .cons (r _) <| .cons (r _) <| .cons (r _) <| .cons (r _) <|
    .cons (r _) <| .cons (r _) <| .cons (r _) <| .cons (r _) .nil

theorem members_apart_all : ∀ k : Fin 40, ∀ o ∈ ((contentMembers fun _ => 1).take k.val).flatten,
    o < 68 ∧ o ∉ contentHeads.drop k.val := by decide +kernel

theorem members_apart {f : Nat → Nat} {k o : Nat} (h : o ∈ ((contentMembers f).take k).flatten) :
    o < 68 ∧ o ∉ contentHeads.drop k := by
  have h := (members_subs f).take k h
  by_cases hk : k < 40
  · exact members_apart_all ⟨k, hk⟩ o h
  · rw [List.take_of_length_le (by show 39 ≤ k; omega)] at h
    have := members_apart_all ⟨39, by decide⟩ o (by rw [List.take_of_length_le (by decide)]; exact h)
    exact ⟨this.1, by rw [List.drop_eq_nil_of_le (by show 39 ≤ k; omega)]; simp⟩

theorem heads_small : ∀ o ∈ contentHeads, o < 68 := by decide

theorem widths_small {f : Nat → Nat} (h : ContentFits f) {o : Nat} (ho : o < 68) : f o < 256 := by
  obtain ⟨w, hw⟩ : ∃ w, contentWidths[o]? = some w := ⟨contentWidths[o]'(by show o < 68; omega), List.getElem?_eq_getElem _⟩
  have := h o w hw
  have hw8 : w ≤ 8 := by
    have : ∀ w ∈ contentWidths, w ≤ 8 := by decide
    exact this w (List.mem_of_getElem? hw)
  exact Nat.lt_of_lt_of_le this (Nat.pow_le_pow_right (by decide) hw8)

/-! ## An entry -/

/-- "Content" with as many bits as announced. -/
theorem content_dec {v : List Bool} {e : RaEntry} (he : e.Ok) {b : Nat} {s : CSt} (hr : Reads v s.rd e.body)
    (hs : s.rem = ((e.body.length : Nat) : Int)) :
    ∃ t, decL v .member b t_Content {} s = .ok t ∧ t.rd + t.rem.toNat = s.rd + e.body.length ∧
      (∀ o ∈ ((contentMembers e.content).take e.known).flatten, t.mem (b + o) = e.content o) ∧
      (∀ o ∈ contentHeads.drop e.known, t.mem (b + o) = 0) ∧
      (∀ a, a < b ∨ b + 68 ≤ a → t.mem a = s.mem a) := by
  have hx : ∀ o, o < 68 → (fun a => e.content (a - b) : Mem) (b + o) % 256 = e.content o := by
    intro o ho
    show e.content (b + o - b) % 256 = _
    rw [Nat.add_sub_cancel_left]
    exact Nat.mod_eq_of_lt (widths_small he.fits ho)
  obtain ⟨l, l1, l2, l3, l4, _⟩ := ((content_grps (m := fun a => e.content (a - b)) hx he.fits).take e.known).flatten
  have l1 := l1 [] []
  rw [List.append_nil, List.nil_append] at l1
  have l1 : layL (fun a => e.content (a - b)) b (contentGroups.take e.known).flatten {} [] = some ([] ++ l) := by
    rw [l1]; unfold layL; rw [if_pos ⟨rfl, rfl⟩]; rfl
  have hb : e.body.length = size l + e.later.length := by
    unfold RaEntry.body; rw [List.length_append, ← l2, code_length]
  have hr1 : Reads v s.rd (code (fun a => e.content (a - b)) l) := by
    rw [l2]; unfold RaEntry.body at hr; exact (Reads.append.mp hr).1
  obtain ⟨bo, hd⟩ := decL_lay v _ _ b {} [] l s (contentGroups.drop e.known).flatten l1 l4 Holds.nil hr1 (by omega)
  have ht : t_Content = (contentGroups.take e.known).flatten ++ (contentGroups.drop e.known).flatten := by
    rw [← List.flatten_append, List.take_append_drop, content_groups]
  rw [ht, hd]
  -- every octet of the fields sent
  have sent : ∀ o ∈ ((contentMembers e.content).take e.known).flatten,
      upd (fun a => e.content (a - b)) l s.mem (b + o) = e.content o := by
    intro o ho
    unfold upd
    rw [if_pos]
    · exact hx o (members_apart ho).1
    · rw [l3, List.map_take.symm, ← List.map_flatten]
      exact List.mem_map_of_mem ho
  have keep : ∀ a, a < b ∨ b + 68 ≤ a → upd (fun a => e.content (a - b)) l s.mem a = s.mem a := by
    intro a ha
    unfold upd
    rw [if_neg]
    intro hc
    rw [l3, List.map_take.symm, ← List.map_flatten, List.mem_map] at hc
    obtain ⟨o, ho, rfl⟩ := hc
    have := (members_apart ho).1
    omega
  rcases he.order with h0 | h0
  · rw [h0, List.length_nil, Nat.add_zero] at hb
    have hrem : (s.got (fun a => e.content (a - b)) l bo).rem = 0 := by
      show s.rem - _ = 0; omega
    have nn : Nuls (contentGroups.drop e.known) (contentHeads.drop e.known) := by
      obtain ⟨k, hk⟩ : ∃ k, e.known = k + 1 := ⟨e.known - 1, by have := he.known; omega⟩
      rw [hk]
      exact content_nuls.drop k
    obtain ⟨mem, d1, d2, d3⟩ := nn.dec (v := v) (b := b) hrem
    refine ⟨_, d1, ?_, fun o ho => ?_, d2, fun a ha => ?_⟩
    · show s.rd + size l + (s.rem - _).toNat = _
      omega
    · show mem (b + o) = _
      rw [d3 _ fun o' ho' heq => (members_apart ho).2 (by have : o = o' := by omega
                                                          rw [this]; exact ho')]
      exact sent o ho
    · show mem a = _
      rw [d3 _ fun o' ho' heq => by have := heads_small o' (List.mem_of_mem_drop ho'); omega]
      exact keep a ha
  · have hg : contentGroups.drop e.known = [] := List.drop_eq_nil_of_le h0
    rw [hg, List.flatten_nil, decL_end (by show 0 ≤ s.rem - _; omega)]
    refine ⟨_, rfl, ?_, sent, fun o ho => ?_, keep⟩
    · show s.rd + size l + (s.rem - _).toNat = _
      omega
    · rw [List.drop_eq_nil_of_le h0] at ho; cases ho

/-- One entry. -/
theorem entry_dec {v : List Bool} {e : RaEntry} (he : e.Ok) {b : Nat} {s : CSt} (hr : Reads v s.rd e.bits)
    (hs : ((e.bits.length : Nat) : Int) ≤ s.rem) :
    ∃ t, decL v .member b t_MS_RA_capability_value {} s = .ok t ∧ t.rd = s.rd + e.bits.length ∧
      t.rem = s.rem - ((e.bits.length : Nat) : Int) ∧ e.In t.mem b ∧ (∀ a, a < b ∨ b + 69 ≤ a → t.mem a = s.mem a) := by
  have hlen : e.bits.length = 11 + e.body.length := by
    unfold RaEntry.bits
    rw [List.length_append, List.length_append, natBits_length, natBits_length]
  unfold RaEntry.bits at hr
  obtain ⟨hr12, hr3⟩ := Reads.append.mp hr
  obtain ⟨hr1, hr2⟩ := Reads.append.mp hr12
  rw [List.length_append, natBits_length, natBits_length] at hr3
  rw [natBits_length] at hr2
  have ht := he.tech
  have b1 : bitsVal v s.rd 4 = e.tech := bitsVal_reads hr1 (by show _ < 16; omega)
  have b2 : bitsVal v (s.rd + 4) 7 = e.body.length := bitsVal_reads hr2 he.len
  have hp : 0 < e.body.length := by
    have hk := he.known
    unfold RaEntry.body
    obtain ⟨k, hk⟩ : ∃ k, e.known = k + 1 := ⟨e.known - 1, by omega⟩
    rw [hk, List.length_append]
    unfold contentFields
    rw [List.take_succ_cons, List.flatten_cons, List.length_append, natBits_length]
    omega
  -- the selector
  let s1 : CSt := ({ s with mem := s.mem.putLe b 1 e.tech } : CSt).take 4
  have hC : decL v .member b t_MS_RA_capability_value {} s =
      (if s1.rem < 0 then CRes.fail errBits else do
        let s ← decD v .member false b (.serialize 1 7 t_Content) s1
        if s.rem < 0 then .fail errBits else .ok s) >>= fun s => decL v .member b [] {} s := by
    unfold t_MS_RA_capability_value
    conv => lhs; unfold decL
    rw [if_neg (by simp)]
    dsimp only
    rw [if_neg (by omega)]
    have : decD v .member false b (.choice 0 1 s_MS_RA_capability_value_Choice c_MS_RA_capability_value_Choice) s =
        decC v .member b 0 1 0 s_MS_RA_capability_value_Choice c_MS_RA_capability_value_Choice s := by
      unfold decD; rfl
    rw [this]
    congr 1
    have w : ∀ x, wr .member b 0 1 0 1 x s = .ok { s with mem := s.mem.putLe b 1 x } := fun _ => rfl
    have hts : s1 = ({ s with mem := s.mem.putLe b 1 e.tech } : CSt).take 4 := rfl
    clear_value s1
    subst hts
    generalize e.tech = k at *
    unfold s_MS_RA_capability_value_Choice c_MS_RA_capability_value_Choice
    obtain rfl | rfl | rfl | rfl | rfl | rfl | rfl | rfl | rfl | rfl | rfl | rfl | rfl | rfl : k = 0 ∨ k = 1 ∨ k = 2 ∨ k = 3 ∨ k = 4 ∨ k = 5 ∨
      k = 6 ∨ k = 7 ∨ k = 8 ∨ k = 9 ∨ k = 10 ∨ k = 11 ∨ k = 12 ∨ k = 13 := by omega
    all_goals
      simp [decC, b1, w, CRes.bind_ok]
  have hrem1 : s1.rem = s.rem - 4 := rfl
  rw [hC, if_neg (by omega)]
  obtain ⟨t, t1, t2, t3, t4, t5⟩ := content_dec he (b := b + 1)
    (s := { s1.take 7 with rem := ((e.body.length : Nat) : Int) }) hr3 rfl
  have hS : decD v .member false b (.serialize 1 7 t_Content) s1 =
      .ok { mem := t.mem, rd := t.rd + t.rem.toNat, bo := (s1.take 7).bo + e.body.length,
            rem := (s1.take 7).rem - ((e.body.length : Nat) : Int) } := by
    unfold decD
    have : bitsVal v s1.rd 7 % 256 = e.body.length := by
      have := he.len
      rw [show s1.rd = s.rd + 4 from rfl, b2]; omega
    rw [if_neg (by simp)]
    dsimp only
    rw [this, if_pos hp, t1, CRes.bind_ok]
  have hr7 : (s1.take 7).rem = s.rem - 4 - 7 := rfl
  rw [hS, CRes.bind_ok, if_neg (by rw [hr7]; show ¬ s.rem - 4 - 7 - _ < 0; omega), CRes.bind_ok,
    decL_end (by rw [hr7]; show 0 ≤ s.rem - 4 - 7 - _; omega)]
  have m1 : s1.mem = s.mem.putLe b 1 e.tech := rfl
  refine ⟨_, rfl, ?_, ?_, ⟨?_, t3, t4⟩, fun a ha => ?_⟩
  · show t.rd + t.rem.toNat = _
    rw [t2]
    show s.rd + 4 + 7 + _ = _
    omega
  · show s.rem - 4 - 7 - _ = _
    rw [hlen]; omega
  · show t.mem b = _
    rw [t5 b (Or.inl (by omega))]
    show s1.mem b = _
    rw [m1, putLe_one', if_pos rfl]; omega
  · show t.mem a = _
    rw [t5 a (by omega)]
    show s1.mem a = _
    rw [m1, putLe_one', if_neg (by omega)]

/-! ## The list -/

theorem entry_in_congr {e : RaEntry} {m m' : Mem} {b : Nat} (h : e.In m b) (hm : ∀ a, b ≤ a → a < b + 69 → m' a = m a) :
    e.In m' b where
  tech := by rw [hm b (by omega) (by omega)]; exact h.tech
  sent o ho := by
    have := (members_apart ho).1
    rw [hm _ (by omega) (by omega)]; exact h.sent o ho
  absent o ho := by
    have := heads_small o (List.mem_of_mem_drop ho)
    rw [hm _ (by omega) (by omega)]; exact h.absent o ho

theorem list_dec {v : List Bool} : ∀ (l : List RaEntry) (cap i : Nat) (s : CSt), l ≠ [] → l.length ≤ cap → i + l.length ≤ 11 →
    (∀ e ∈ l, e.Ok) → Reads v s.rd (raBits l) → (((raBits l).length : Nat) : Int) ≤ s.rem →
    ∃ t, recTArr1Loop v (elt .member 0 1 759 69 (fun b s => decL v .member b t_MS_RA_capability_value {} s)) cap i s =
        .ok (i + l.length, t) ∧ 0 ≤ t.rem ∧
      (∀ (j : Nat) (e : RaEntry), l[j]? = some e → e.In t.mem (1 + (i + j) * 69)) ∧
      (∀ a, a < 1 + i * 69 → t.mem a = s.mem a)
  | [], _, _, _, h, _, _, _, _, _ => absurd rfl h
  | e :: l, 0, _, _, _, h, _, _, _, _ => by simp at h
  | e :: l, cap + 1, i, s, _, hc, hi, hok, hr, hs => by
    rw [List.length_cons] at hc hi
    have he := hok e (List.mem_cons_self ..)
    obtain ⟨tl, htl⟩ : ∃ tl, raBits (e :: l) = e.bits ++ tl := by
      cases l with
      | nil => exact ⟨[false], rfl⟩
      | cons a l => exact ⟨true :: raBits (a :: l), rfl⟩
    have hr' := hr
    rw [htl] at hr'
    obtain ⟨hr1, hr2⟩ := Reads.append.mp hr'
    have hl : (raBits (e :: l)).length = e.bits.length + tl.length := by rw [htl, List.length_append]
    obtain ⟨t, t1, t2, t3, t4, t5⟩ := entry_dec he (b := 0 + 1 + i * 69) hr1 (by omega)
    have hf : elt .member 0 1 759 69 (fun b s => decL v .member b t_MS_RA_capability_value {} s) i s = .ok t := by
      unfold elt
      rw [if_pos (by show decide ((i + 1) * 69 ≤ 759) = true; rw [decide_eq_true_iff]; omega)]
      exact t1
    unfold recTArr1Loop
    rw [hf, CRes.bind_ok, if_neg (by omega)]
    cases l with
    | nil =>
      have htl' : tl = [false] := by
        have : e.bits ++ [false] = e.bits ++ tl := htl
        exact (List.append_cancel_left this).symm
      subst htl'
      have hb := (Reads.cons.mp hr2).1
      have : tagSet v t.rd = false := by rw [t2]; exact tag_false (m := fun _ => 0) hr2
      dsimp only
      rw [this, if_neg (by simp)]
      refine ⟨_, rfl, ?_, fun j e' hj => ?_, fun a ha => ?_⟩
      · show 0 ≤ t.rem - 1
        rw [List.length_singleton] at hl
        omega
      · cases j with
        | zero =>
          obtain rfl := Option.some.inj hj
          show e.In t.mem _
          rw [show 1 + (i + 0) * 69 = 0 + 1 + i * 69 by omega]
          exact t4
        | succ j => cases hj
      · exact t5 a (by omega)
    | cons e2 l =>
      have htl' : tl = true :: raBits (e2 :: l) := by
        have : e.bits ++ true :: raBits (e2 :: l) = e.bits ++ tl := htl
        exact (List.append_cancel_left this).symm
      subst htl'
      obtain ⟨hb, hr3⟩ := Reads.cons.mp hr2
      have : tagSet v t.rd = true := by
        rw [t2]; refine tag_true (m := fun _ => 0) ?_
        exact Reads.cons.mpr ⟨hb, fun k b hk => by have hk : ([] : List Bool)[k]? = some b := hk; simp at hk⟩
      dsimp only
      rw [this, if_pos rfl]
      rw [List.length_cons (as := raBits (e2 :: l))] at hl
      obtain ⟨q, q1, q2, q3, q4⟩ := list_dec (v := v) (e2 :: l) cap (i + 1)
        { t with rd := t.rd + 1, bo := t.bo + 1, rem := t.rem - 1 } (by simp) (by omega) (by omega)
        (fun e he => hok e (List.mem_cons_of_mem _ he)) (by show Reads v (t.rd + 1) _; rw [t2]; exact hr3)
        (by show _ ≤ t.rem - 1; omega)
      refine ⟨q, ?_, q2, fun j e' hj => ?_, fun a ha => ?_⟩
      · rw [q1, List.length_cons (a := e)]
        congr 2
        omega
      · cases j with
        | zero =>
          obtain rfl := Option.some.inj hj
          refine entry_in_congr (m := t.mem) ?_ fun a h1 h2 => ?_
          · rw [show 1 + (i + 0) * 69 = 0 + 1 + i * 69 by omega]; exact t4
          · exact q4 a (by omega)
        | succ j =>
          have := q3 j e' hj
          rw [show i + 1 + j = i + (j + 1) by omega] at this
          exact this
      · rw [q4 a (by omega)]
        exact t5 a (by omega)

/-- A whole capability. -/
theorem raCap_dec {v : List Bool} {l : List RaEntry} {n : Nat} {m0 : Mem} (hne : l ≠ []) (hl : l.length ≤ 11)
    (hok : ∀ e ∈ l, e.Ok) (hr : Reads v 0 (raBits l)) (hn : (raBits l).length ≤ 8 * n) :
    ∃ s, decodeRaCap v n m0 = .ok s ∧ s.mem 0 = l.length ∧ ∀ (j : Nat) (e : RaEntry), l[j]? = some e → e.In s.mem (1 + j * 69) := by
  obtain ⟨t, t1, t2, t3, _⟩ := list_dec l 11 0 { mem := m0, rd := 0, bo := 0, rem := 8 * n } hne hl (by omega) hok hr
    (by show _ ≤ 8 * (n : Int); omega)
  have w : wr .member 0 0 1 0 1 (0 + l.length) t = .ok { t with mem := t.mem.putLe 0 1 (0 + l.length) } := rfl
  refine ⟨{ t with mem := t.mem.putLe 0 1 (0 + l.length), bo := t.bo + t.rem.toNat, rem := 0 }, ?_, ?_, fun j e hj => ?_⟩
  · unfold decodeRaCap t_MS_Radio_Access_capability
    conv => lhs; unfold decL
    rw [if_neg (by simp)]
    dsimp only
    rw [if_neg (by omega)]
    have : decD v .member false 0 (.recTArr1 1 759 69 11 0 t_MS_RA_capability_value) { mem := m0, rd := 0, bo := 0, rem := 8 * n } =
        .ok { t with mem := t.mem.putLe 0 1 (0 + l.length) } := by
      unfold decD
      rw [if_neg (by simp), t1, CRes.bind_ok]
      exact w
    rw [this, CRes.bind_ok]
    conv => lhs; unfold decL
    rw [if_neg (by simp)]
    dsimp only
    rw [if_neg (show ¬ t.rem < 0 by omega)]
    have : decD v .member false 0 .padding { t with mem := t.mem.putLe 0 1 (0 + l.length) } =
        .ok { t with mem := t.mem.putLe 0 1 (0 + l.length), bo := t.bo + t.rem.toNat, rem := 0 } := by
      unfold decD
      rw [if_neg (by simp), if_neg (show ¬ t.rem < 0 by omega)]
    rw [this, CRes.bind_ok, decL_end (Int.le_refl _)]
  · show t.mem.putLe 0 1 (0 + l.length) 0 = _
    rw [putLe_one', if_pos rfl]; omega
  · have := t3 j e hj
    rw [Nat.zero_add] at this
    refine entry_in_congr this fun a h1 _ => ?_
    show t.mem.putLe 0 1 (0 + l.length) a = _
    rw [putLe_one', if_neg (by omega)]

end Verif.Csn1
