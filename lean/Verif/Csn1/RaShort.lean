import Verif.Csn1.RaEnc

/-!
# Lemmas: capabilities that do not fit

Lines with "or null" are left out if no bits remain for them, so a field may be skipped in the middle; but
the smaller fields behind it use up what remains.
-/
namespace Verif.Csn1

open Spec

theorem encL_short {m : Mem} {len b : Nat} {ds : List Csn} {s : ESt} (h : s.rem < 0) :
    encL m len b ds {} s = .fail errBits := by
  cases ds with
  | nil => unfold encL; rw [if_pos rfl, if_pos h]
  | cons d ds => unfold encL; rw [if_neg (by simp)]; dsimp only; rw [if_pos h]

theorem encL_over {m : Mem} {len b : Nat} {s : ESt} : ∀ (g ds : List Csn),
    encL m len b (g ++ ds) { skip := g.length } s = encL m len b ds {} s
  | [], ds => rfl
  | d :: g, ds => by
    rw [List.cons_append]
    conv => lhs; unfold encL
    rw [if_pos (by simp)]
    exact encL_over g ds

/-- The lines `g` take `B` bits; if there are fewer, they fail or leave at most `w`. -/
def Shy (m : Mem) (len b : Nat) (g : List Csn) (B w : Nat) : Prop :=
  ∀ (ds : List Csn) (s : ESt), 0 ≤ s.rem → (∃ e, encL m len b (g ++ ds) {} s = .fail e) ∨
    ∃ s', encL m len b (g ++ ds) {} s = encL m len b ds {} s' ∧ 0 ≤ s'.rem ∧
      ((B ≤ s.rem ∧ s'.rem = s.rem - B) ∨ (s.rem < B ∧ s'.rem ≤ w))

theorem Shy.nil {m : Mem} {len b : Nat} : Shy m len b [] 0 0 :=
  fun ds s h => .inr ⟨s, rfl, h, .inl ⟨h, by omega⟩⟩

theorem Shy.append {m : Mem} {len b : Nat} {g g' : List Csn} {B B' w w' : Nat} (h : Shy m len b g B w)
    (h' : Shy m len b g' B' w') (hw : w ≤ B' + w') : Shy m len b (g ++ g') (B + B') w' := by
  intro ds s hs
  rw [List.append_assoc]
  rcases h (g' ++ ds) s hs with h | ⟨s1, e1, p1, q1⟩
  · exact .inl h
  rw [e1]
  rcases h' ds s1 p1 with h | ⟨s2, e2, p2, q2⟩
  · exact .inl h
  exact .inr ⟨s2, e2, p2, by omega⟩

theorem wrBits_one {m : Mem} {len b off n : Nat} {s : ESt} :
    wrBits m len b off 1 0 1 n s = .ok (s.put len (getLe m (b + off + 0) 1) n) := by
  unfold wrBits; rw [if_pos (by decide)]

theorem Shy.uint {m : Mem} {len b off bits w : Nat} {nul : Bool} (hb : bits ≤ 8) (hw : nul = true → bits ≤ w + 1) :
    Shy m len b [.uint off 1 bits nul] bits w := by
  intro ds s hs
  have hu : uintW bits = 1 := by unfold uintW; rw [if_pos hb]
  rw [List.singleton_append]
  have e : encL m len b (.uint off 1 bits nul :: ds) {} s = (do
      let s ← encD m len false b (.uint off 1 bits nul) s
      encL m len b ds {} s) := by
    conv => lhs; unfold encL
    rw [if_neg (by simp)]; dsimp only
    rw [if_neg (by omega)]
  rw [e]
  unfold encD
  by_cases h : s.rem ≥ bits
  · rw [if_pos h, if_pos (by omega), hu, wrBits_one]
    by_cases h0 : (0 : Int) ≤ s.rem - bits
    · exact .inr ⟨_, rfl, h0, .inl ⟨h, rfl⟩⟩
    · omega
  · rw [if_neg h, if_neg (by simp)]
    cases nul with
    | false => exact .inl ⟨_, rfl⟩
    | true =>
      have := hw rfl
      exact .inr ⟨s, rfl, hs, .inr ⟨by omega, by omega⟩⟩

theorem Shy.typ {m : Mem} {len b off B w : Nat} {sub : List Csn} {nul : Bool} (h : Shy m len (b + off) sub B w) :
    Shy m len b [.typ off nul sub] B w := by
  intro ds s hs
  rw [List.singleton_append]
  have e : encL m len b (.typ off nul sub :: ds) {} s = (do
      let s ← encL m len (b + off) sub {} s
      encL m len b ds {} s) := by
    conv => lhs; unfold encL
    rw [if_neg (by simp)]; dsimp only
    rw [if_neg (by omega)]
    unfold encD
    rfl
  rw [e]
  have h := h [] s hs
  rw [List.append_nil] at h
  rcases h with ⟨x, h⟩ | ⟨s', e', p, q⟩
  · rw [h]; exact .inl ⟨x, rfl⟩
  · have : encL m len (b + off) [] {} s' = .ok s' := by
      unfold encL; rw [if_pos rfl, if_neg (by omega)]
    rw [e', this]
    exact .inr ⟨s', rfl, p, q⟩

theorem Shy.opt {m : Mem} {len b off x B w n : Nat} {g : List Csn} {nul : Bool} (hn : g.length = n)
    (hx : m (b + off) % 256 = x) (h : Shy m len b g B w) :
    Shy m len b (.nextExist false off 1 n nul :: g) (if x = 0 then 1 else 1 + B) w := by
  subst hn
  intro ds s hs
  rw [List.cons_append]
  by_cases hz : nul = true ∧ s.rem = 0
  · have e : encL m len b (.nextExist false off 1 g.length nul :: (g ++ ds)) {} s = encL m len b ds {} s := by
      conv => lhs; unfold encL
      rw [if_neg (by simp)]; dsimp only
      rw [if_neg (by omega), hz.1, hz.2, if_pos (by decide), encL_over]
    rw [e]
    exact .inr ⟨s, rfl, hs, .inr ⟨by split <;> omega, by omega⟩⟩
  · generalize hs1 : (s.put len (getLe m (b + off + 0) 1) 1).took 1 = s1
    have hr : s1.rem = s.rem - 1 := by rw [← hs1]; rfl
    have e : encL m len b (.nextExist false off 1 g.length nul :: (g ++ ds)) {} s =
        encL m len b (g ++ ds) { skip := if x = 0 then g.length else 0 } s1 := by
      conv => lhs; unfold encL
      rw [if_neg (by simp)]; dsimp only
      rw [if_neg (by omega), if_neg (by simpa using hz), if_neg (by simp), wrBits_one, hx, ← hs1]
      rfl
    rw [e]
    by_cases h0 : x = 0
    · rw [if_pos h0, if_pos h0, encL_over]
      by_cases hl : s1.rem < 0
      · exact .inl ⟨_, encL_short hl⟩
      · exact .inr ⟨s1, rfl, by omega, .inl ⟨by omega, by omega⟩⟩
    · rw [if_neg h0, if_neg h0, show ({ skip := 0 } : Ctl) = {} from rfl]
      by_cases hl : s1.rem < 0
      · exact .inl ⟨_, encL_short hl⟩
      · rcases h ds s1 (by omega) with h | ⟨s2, e2, p2, q2⟩
        · exact .inl h
        · exact .inr ⟨s2, e2, p2, by omega⟩

/-- Groups of lines whose slack is used up by the groups behind. -/
inductive Shys (m : Mem) (len b : Nat) : List (List Csn) → List (List Bool) → Prop
  | nil : Shys m len b [] []
  | cons {g gs x xs} (w : Nat) : Shy m len b g x.length w → 0 < x.length → w ≤ gs.length → Shys m len b gs xs →
      Shys m len b (g :: gs) (x :: xs)

theorem Shys.count {m : Mem} {len b : Nat} {gs xs} (h : Shys m len b gs xs) : gs.length ≤ xs.flatten.length := by
  induction h with
  | nil => exact Nat.le_refl _
  | cons w a p q _ ih => rw [List.flatten_cons, List.length_append, List.length_cons]; omega

theorem Shys.flatten {m : Mem} {len b : Nat} {gs xs} (h : Shys m len b gs xs) :
    Shy m len b gs.flatten xs.flatten.length 0 := by
  induction h with
  | nil => exact Shy.nil
  | cons w a p q r ih =>
    have := r.count
    rw [List.flatten_cons, List.flatten_cons, List.length_append]
    exact a.append ih (by omega)

theorem shy_ifThere {m : Mem} {len b off x w n : Nat} {g : List Csn} {l : List Bool} {nul : Bool} (hn : g.length = n)
    (hx : m (b + off) % 256 = x) (h : Shy m len b g l.length w) :
    Shy m len b (.nextExist false off 1 n nul :: g) (ifThere x l).length w := by
  have e : (ifThere x l).length = if x = 0 then 1 else 1 + l.length := by
    unfold ifThere; split
    · rfl
    · rw [List.length_cons]; omega
  rw [e]
  exact Shy.opt hn hx h

theorem shy_uint {m : Mem} {len b off x : Nat} (bits w : Nat) (nul : Bool) (hb : bits ≤ 8) (hw : nul = true → bits ≤ w + 1) :
    Shy m len b [.uint off 1 bits nul] (natBits bits x).length w := by
  rw [natBits_length]; exact Shy.uint hb hw

theorem shy_two {m : Mem} {len b : Nat} {g g' : List Csn} {l l' : List Bool} {w' : Nat} (h : Shy m len b g l.length 0)
    (h' : Shy m len b g' l'.length w') : Shy m len b (g ++ g') (l ++ l').length w' := by
  rw [List.length_append]; exact h.append h' (by omega)

theorem multislot_shy {m : Mem} {len b : Nat} {f : Nat → Nat} (hx : ∀ o, o < 18 → m (b + o) % 256 = f o) :
    Shy m len b t_Multislot_capability (multislotBits f).length 0 := by
  have u : ∀ (o bits : Nat), bits ≤ 8 → Shy m len b [.uint o 1 bits false] (natBits bits (f o)).length 0 :=
    fun o bits h => shy_uint bits 0 false h (by simp)
  have fl : ∀ (o n : Nat) (g : List Csn) (l : List Bool), g.length = n → o < 18 → Shy m len b g l.length 0 →
      Shy m len b (.nextExist false o 1 n true :: g) (ifThere (f o) l).length 0 :=
    fun o n g l h1 h2 h3 => shy_ifThere h1 (hx o h2) h3
  exact shy_two (shy_two (shy_two (shy_two (shy_two
    (fl 0 1 _ _ rfl (by decide) (u 1 5 (by decide)))
    (fl 2 2 _ _ rfl (by decide) (shy_two (u 3 5 (by decide)) (u 4 1 (by decide)))))
    (fl 5 2 _ _ rfl (by decide) (shy_two (u 6 4 (by decide)) (u 7 4 (by decide)))))
    (fl 8 1 _ _ rfl (by decide) (u 9 5 (by decide))))
    (fl 10 2 _ _ rfl (by decide) (shy_two (u 11 5 (by decide)) (u 12 1 (by decide)))))
    (fl 13 3 _ _ rfl (by decide) (shy_two (shy_two (u 14 2 (by decide)) (u 15 1 (by decide)))
      (Shy.typ (shy_ifThere (off := 0) (n := 1) (nul := false) rfl (hx 16 (by decide))
        (shy_uint (off := 1) (x := f 17) 2 0 false (by decide) (by simp))))))

theorem content_shys {m : Mem} {len b : Nat} {f : Nat → Nat} (hx : ∀ o, o < 68 → m (b + o) % 256 = f o) :
    Shys m len b contentGroups (contentFields f) := by
  have u : ∀ (o bits w : Nat) (nul : Bool), bits ≤ 8 → (nul = true → bits ≤ w + 1) →
      Shy m len b [.uint o 1 bits nul] (natBits bits (f o)).length w :=
    fun o bits w nul h1 h2 => shy_uint bits w nul h1 h2
  have fl : ∀ (o n w : Nat) (g : List Csn) (l : List Bool), g.length = n → o < 68 → Shy m len b g l.length w →
      Shy m len b (.nextExist false o 1 n true :: g) (ifThere (f o) l).length w :=
    fun o n w g l h1 h2 h3 => shy_ifThere h1 (hx o h2) h3
  have one : ∀ (o : Nat) {gs xs}, Shys m len b gs xs → Shys m len b ([.uint o 1 1 true] :: gs) (natBits 1 (f o) :: xs) :=
    fun o gs xs h => .cons 0 (u o 1 0 true (by decide) (by simp)) (by rw [natBits_length]; decide) (Nat.zero_le _) h
  have two : ∀ (o : Nat) {g gs xs}, Shys m len b (g :: gs) xs →
      Shys m len b ([.uint o 1 2 true] :: g :: gs) (natBits 2 (f o) :: xs) :=
    fun o g gs xs h => .cons 1 (u o 2 1 true (by decide) (by simp)) (by rw [natBits_length]; decide) (by simp) h
  have op : ∀ (o n : Nat) (g : List Csn) (l : List Bool) {gs xs}, g.length = n → o < 68 → Shy m len b g l.length 0 →
      Shys m len b gs xs → Shys m len b ((.nextExist false o 1 n true :: g) :: gs) (ifThere (f o) l :: xs) :=
    fun o n g l gs xs h1 h2 h3 h => .cons 0 (fl o n 0 g l h1 h2 h3) ifThere_length (Nat.zero_le _) h
  have v : ∀ (o bits : Nat), bits ≤ 8 → Shy m len b [.uint o 1 bits false] (natBits bits (f o)).length 0 :=
    fun o bits h => u o bits 0 false h (by simp)
  unfold contentGroups contentFields
  refine .cons 0 (v 0 3 (by decide)) (by rw [natBits_length]; decide) (Nat.zero_le _) <|
    .cons 6 (fl 1 1 6 _ _ rfl (by decide) (u 2 7 6 true (by decide) (by simp))) ifThere_length (by decide) <|
    one 3 <| one 4 <| one 5 <| one 6 <|
    op 7 1 _ _ rfl (by decide) (Shy.typ (multislot_shy fun o ho => by rw [Nat.add_assoc]; exact hx _ (by omega))) <|
    op 26 1 _ _ rfl (by decide) (v 27 2 (by decide)) <|
    one 28 <| one 29 <| one 30 <| one 31 <| one 32 <| one 33 <| one 34 <|
    op 35 2 _ _ rfl (by decide) (shy_two (v 36 2 (by decide)) (v 37 2 (by decide))) <|
    one 38 <|
    op 39 1 _ _ rfl (by decide) (v 40 2 (by decide)) <|
    op 41 1 _ _ rfl (by decide) (v 42 4 (by decide)) <|
    two 43 <| two 44 <| one 45 <| two 46 <| one 47 <| one 48 <|
    op 49 2 _ _ rfl (by decide) (shy_two (v 50 3 (by decide)) (Shy.typ
      (shy_ifThere (off := 0) (n := 1) (nul := false) rfl (by rw [Nat.add_assoc]; exact hx 51 (by decide))
        (shy_uint (off := 1) (x := f 52) 3 0 false (by decide) (by simp))))) <|
    one 53 <| one 54 <|
    op 55 1 _ _ rfl (by decide) (Shy.typ (shy_two
      (shy_uint (off := 0) (x := f 56) 3 0 false (by decide) (by simp))
      (shy_uint (off := 1) (x := f 57) 1 0 false (by decide) (by simp)))) <|
    one 58 <| one 59 <| one 60 <| one 61 <| two 62 <| two 63 <| one 64 <| one 65 <| two 66 <| one 67 .nil

/-- Outcome of writing `N` bits where `s` has room: an error, or all written, or nothing left. -/
def Tight (N : Nat) (s : ESt) (r : CRes ESt) : Prop :=
  (∃ e, r = .fail e) ∨ ∃ s', r = .ok s' ∧ 0 ≤ s'.rem ∧ ((N ≤ s.rem ∧ s'.rem = s.rem - N) ∨ (s.rem < N ∧ s'.rem = 0))

theorem entry_tight {m : Mem} {len b : Nat} {e : RaEntry} (he : e.Ok) (hm : e.Filled m b) (s : ESt) :
    Tight e.bits.length s (encL m len b t_MS_RA_capability_value {} s) := by
  by_cases hs : s.rem < 0
  · exact .inl ⟨_, encL_short hs⟩
  have hbody : e.body = (contentFields e.content).flatten := by
    unfold RaEntry.body
    rw [hm.later, hm.known, List.append_nil, List.take_of_length_le (Nat.le_refl 39)]
  have hlen : e.bits.length = 4 + 7 + (contentFields e.content).flatten.length := by
    unfold RaEntry.bits
    rw [List.length_append, List.length_append, natBits_length, natBits_length, hbody]
  have hc := (content_shys (len := len) (b := b + 1) hm.content).flatten
  rw [← content_groups] at hc
  rw [hlen]
  generalize (contentFields e.content).flatten.length = N at *
  -- the alternative
  have hS : ∀ t : ESt, Tight (7 + N) t (encD m len false b (.serialize 1 7 t_Content) t) := by
    intro t
    unfold encD
    rw [if_neg (by simp)]
    dsimp only
    by_cases ht : t.rem - 7 < 0
    · rw [encL_short (by show t.rem - ((7 : Nat) : Int) < 0; omega)]
      exact .inl ⟨_, rfl⟩
    · have h := hc [] { t with wi := t.wi + 7, bo := t.bo + 7, rem := t.rem - (7 : Nat) } (by show 0 ≤ t.rem - ((7 : Nat) : Int); omega)
      rw [List.append_nil] at h
      rcases h with ⟨x, h⟩ | ⟨s', e', p, q⟩
      · rw [h]; exact .inl ⟨x, rfl⟩
      · have : encL m len (b + 1) [] {} s' = .ok s' := by
          unfold encL; rw [if_pos rfl, if_neg (by omega)]
        rw [e', this]
        refine .inr ⟨_, rfl, p, ?_⟩
        show _ ∨ (_ ∧ s'.rem = 0)
        have q : (N : Int) ≤ t.rem - ((7 : Nat) : Int) ∧ s'.rem = t.rem - ((7 : Nat) : Int) - N ∨
            t.rem - ((7 : Nat) : Int) < N ∧ s'.rem ≤ ((0 : Nat) : Int) := q
        rcases q with q | q
        · exact .inl ⟨by omega, by show s'.rem = _; omega⟩
        · exact .inr ⟨by omega, by omega⟩
  have ht := he.tech
  have hC : Tight (4 + 7 + N) s (encC m len b (m b % 256) s_MS_RA_capability_value_Choice c_MS_RA_capability_value_Choice s) := by
    have key : ∀ v, Tight (4 + 7 + N) s (if ((s.put len v 4).took 4).rem < 0 then .fail errBits
        else do
          let s ← encD m len false b (.serialize 1 7 t_Content) ((s.put len v 4).took 4)
          if s.rem < 0 then .fail errBits else .ok s) := by
      intro v
      have hr : ((s.put len v 4).took 4).rem = s.rem - 4 := rfl
      generalize (s.put len v 4).took 4 = t at *
      by_cases h4 : t.rem < 0
      · rw [if_pos h4]; exact .inl ⟨_, rfl⟩
      · rw [if_neg h4]
        rcases hS t with ⟨x, h⟩ | ⟨s', e', p, q⟩
        · rw [h]; exact .inl ⟨x, rfl⟩
        · rw [e']
          refine .inr ⟨s', ?_, p, by omega⟩
          show (if s'.rem < 0 then _ else _) = _
          rw [if_neg (by omega)]
    rw [hm.tech]
    generalize e.tech = k at *
    unfold s_MS_RA_capability_value_Choice c_MS_RA_capability_value_Choice
    obtain rfl | rfl | rfl | rfl | rfl | rfl | rfl | rfl | rfl | rfl | rfl | rfl | rfl | rfl : k = 0 ∨ k = 1 ∨ k = 2 ∨ k = 3 ∨ k = 4 ∨ k = 5 ∨
      k = 6 ∨ k = 7 ∨ k = 8 ∨ k = 9 ∨ k = 10 ∨ k = 11 ∨ k = 12 ∨ k = 13 := by omega
    all_goals
      simp only [encC, if_true, Nat.add_one_sub_one, Nat.reduceSub, Nat.reduceEqDiff, if_false]
      exact key _
  unfold t_MS_RA_capability_value
  have e1 : encL m len b [.choice 0 1 s_MS_RA_capability_value_Choice c_MS_RA_capability_value_Choice] {} s = (do
      let s ← encC m len b (m b % 256) s_MS_RA_capability_value_Choice c_MS_RA_capability_value_Choice s
      encL m len b [] {} s) := by
    conv => lhs; unfold encL
    rw [if_neg (by simp)]; dsimp only
    rw [if_neg (by omega)]
    unfold encD
    rw [if_neg (by simp), if_neg (by decide), Nat.add_zero]
  rw [e1]
  rcases hC with ⟨x, h⟩ | ⟨s', e', p, q⟩
  · rw [h]; exact .inl ⟨x, rfl⟩
  · rw [e']
    refine .inr ⟨s', ?_, p, q⟩
    show encL m len b [] {} s' = _
    unfold encL; rw [if_pos rfl, if_neg (by omega)]

/-- Bits of the entries and the tags before them. -/
def tagged : List RaEntry → Nat → Nat
  | [], _ => 0
  | e :: l, i => (if i = 0 then 0 else 1) + e.bits.length + tagged l (i + 1)

theorem raBits_tagged : ∀ (l : List RaEntry) (i : Nat), l ≠ [] →
    tagged l i + 1 = (if i = 0 then 0 else 1) + (raBits l).length
  | [], _, h => absurd rfl h
  | [e], i, _ => by
    show (if i = 0 then 0 else 1) + e.bits.length + 0 + 1 = _ + (e.bits ++ [false]).length
    rw [List.length_append]; rfl
  | e :: e2 :: l, i, _ => by
    have ih := raBits_tagged (e2 :: l) (i + 1) (by simp)
    rw [if_neg (by omega)] at ih
    show (if i = 0 then 0 else 1) + e.bits.length + tagged (e2 :: l) (i + 1) + 1 = _ + (e.bits ++ true :: raBits (e2 :: l)).length
    rw [List.length_append, List.length_cons]
    omega

theorem list_tight {m : Mem} {len : Nat} : ∀ (l : List RaEntry) (i : Nat) (s : ESt), 0 ≤ s.rem → i + l.length ≤ 11 → (∀ e ∈ l, e.Ok) →
    (∀ (j : Nat) (e : RaEntry), l[j]? = some e → e.Filled m (1 + (i + j) * 69)) →
    Tight (tagged l i) s (recTArr1E len (eltE 0 1 759 69 (fun b s => encL m len b t_MS_RA_capability_value {} s)) l.length i s)
  | [], i, s, hs, _, _, _ => .inr ⟨s, rfl, hs, .inl ⟨hs, by show s.rem = s.rem - ((0 : Nat) : Int); omega⟩⟩
  | e :: l, i, s, hs, hl, hok, hf => by
    rw [List.length_cons] at hl ⊢
    unfold recTArr1E
    have ht := entry_tight (len := len) (hok e (List.mem_cons_self ..)) (hf 0 e rfl) (if i = 0 then s else (s.put len 1 1).took 1)
    have hr : (if i = 0 then s else (s.put len 1 1).took 1).rem = s.rem - (if i = 0 then 0 else 1 : Nat) := by
      split
      · omega
      · rfl
    generalize (if i = 0 then s else (s.put len 1 1).took 1) = t at *
    have he : eltE 0 1 759 69 (fun b s => encL m len b t_MS_RA_capability_value {} s) i t =
        encL m len (1 + (i + 0) * 69) t_MS_RA_capability_value {} t := by
      unfold eltE
      rw [if_pos (by omega), show 0 + 1 + i * 69 = 1 + (i + 0) * 69 by omega]
    rw [he]
    show Tight ((if i = 0 then 0 else 1) + e.bits.length + tagged l (i + 1)) s _
    generalize (if i = 0 then 0 else 1) = k at *
    rcases ht with ⟨x, h⟩ | ⟨s', e', p, q⟩
    · rw [h]; exact .inl ⟨x, rfl⟩
    · rw [e']
      show Tight _ s (if s'.rem < 0 then _ else recTArr1E len _ l.length (i + 1) s')
      rw [if_neg (by omega)]
      have ih := list_tight (len := len) l (i + 1) s' p (by omega) (fun e he => hok e (List.mem_cons_of_mem _ he))
        (fun j e he => by
          have := hf (j + 1) e he
          rw [show i + (j + 1) = i + 1 + j by omega] at this
          exact this)
      rcases ih with h | ⟨s2, e2, p2, q2⟩
      · exact .inl h
      · exact .inr ⟨s2, e2, p2, by omega⟩

/-- Capabilities in the long form that do not fit are refused. -/
theorem raCap_short {m : Mem} {l : List RaEntry} {n : Nat} {vec : Nat → Bool} (hne : l ≠ []) (hl : l.length ≤ 11)
    (hok : ∀ e ∈ l, e.Ok) (hn : m 0 % 256 = l.length)
    (hf : ∀ (j : Nat) (e : RaEntry), l[j]? = some e → e.Filled m (1 + j * 69)) (hs : 8 * n < (raBits l).length) :
    ∃ e, encodeRaCap m n vec = .fail e := by
  have ht := list_tight (m := m) (len := 8 * n) l 0 { vec := vec, wi := 0, bo := 0, rem := ((8 * n : Nat) : Int) }
    (by show (0 : Int) ≤ ((8 * n : Nat) : Int); omega) (by omega) hok (fun j e he => by rw [Nat.zero_add]; exact hf j e he)
  have hb := raBits_tagged l 0 hne
  rw [if_pos rfl] at hb
  unfold encodeRaCap t_MS_Radio_Access_capability
  conv => rhs; ext e; lhs; arg 1; unfold encL
  simp only [ne_eq, not_true_eq_false, if_false]
  rw [if_neg (by show ¬ ((8 * n : Nat) : Int) < 0; omega)]
  unfold encD
  rw [if_neg (by simp), Nat.add_zero, hn]
  rcases ht with ⟨x, h⟩ | ⟨s', e', p, q⟩
  · rw [h]; exact ⟨x, rfl⟩
  · rw [e']
    have q : (tagged l 0 : Int) ≤ ((8 * n : Nat) : Int) ∧ s'.rem = ((8 * n : Nat) : Int) - tagged l 0 ∨
      ((8 * n : Nat) : Int) < tagged l 0 ∧ s'.rem = 0 := q
    refine ⟨errBits, ?_⟩
    show encDone (encL m (8 * n) 0 [.padding] {} ((s'.put (8 * n) 0 1).took 1)) = _
    rw [encL_short (by show s'.rem - ((1 : Nat) : Int) < 0; omega)]
    rfl

end Verif.Csn1
