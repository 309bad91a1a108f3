import Verif.Props.Qos
/-!
# C56: quality of service profile as a whole
-/
namespace Verif.Props
open Verif Verif.Qos Verif.Spec.Qos

/-! ## Profiles -/

/-- **C56**, full statement: the decoder never reads outside the octets given to it, and what the
encoder builds can be decoded. -/
def C56Statement : Prop :=
  (∀ b : List UInt8, (parse b).Safe) ∧
  (∀ d : Profile, d.octets.length = 20 → ∃ d', parse (build d) = .ok d')

theorem parseRate_ok (b : List UInt8) (i i1 i2 : Nat) (p1 p2 : Bool) (h : i < b.length)
    (h1 : p1 = true → i1 < b.length) (h2 : p2 = true → i2 < b.length) :
    parseRate b i p1 i1 p2 i2 = .ok (decMbr (b.getD i 0).toNat
      (if p1 then some (b.getD i1 0).toNat else none)
      (if p2 then some (b.getD i2 0).toNat else none)) := by
  have hr : ∀ j, j < b.length → rd b j = .ok (b.getD j 0).toNat := by
    intro j hj
    rw [rd_of_lt hj]
    simp [List.getD, hj]
  have hrd : ∀ (p : Bool) j, (p = true → j < b.length) →
      rdIf b p j = .ok (if p then some (b.getD j 0).toNat else none) := by
    intro p j hj
    unfold rdIf
    cases p with
    | false => rfl
    | true => simp only [if_true, hr j (hj rfl)]; rfl
  unfold parseRate
  rw [hr i h, hrd p1 i1 h1, hrd p2 i2 h2]
  rfl

/-- The decoder in full, for the lengths it handles well. -/
theorem parse_long (b : List UInt8)
    (h : b.length = 20 ∨ b.length = 16 ∨ b.length = 12 ∨ b.length = 11) :
    ∃ d, parse b = .ok d ∧ d.octets = b ++ List.replicate (20 - b.length) 0 ∧
      d.octets6to13 = true ∧ d.octet14 = decide (b.length ≥ 12) ∧
      d.dlExt = decide (b.length ≥ 14) ∧ d.ulExt = decide (b.length ≥ 16) ∧
      d.dlExt2 = decide (b.length ≥ 18) ∧ d.ulExt2 = decide (b.length ≥ 20) ∧
      d.delay = decDelay ((b.getD 8 0).toNat / 4) ∧
      d.mbrDl = decMbr (b.getD 6 0).toNat (if b.length ≥ 16 then some (b.getD 14 0).toNat else none)
        (if b.length ≥ 20 then some (b.getD 18 0).toNat else none) ∧
      d.mbrUl = decMbr (b.getD 5 0).toNat (if b.length ≥ 16 then some (b.getD 12 0).toNat else none)
        (if b.length ≥ 20 then some (b.getD 16 0).toNat else none) ∧
      d.gbrDl = decMbr (b.getD 10 0).toNat (if b.length ≥ 16 then some (b.getD 15 0).toNat else none)
        (if b.length ≥ 20 then some (b.getD 19 0).toNat else none) ∧
      d.gbrUl = decMbr (b.getD 9 0).toNat (if b.length ≥ 16 then some (b.getD 13 0).toNat else none)
        (if b.length ≥ 20 then some (b.getD 17 0).toNat else none) := by
  have e14 : decide (b.length ≥ 14) = decide (b.length ≥ 16) := by
    rw [decide_eq_decide]; omega
  have e18 : decide (b.length ≥ 18) = decide (b.length ≥ 20) := by
    rw [decide_eq_decide]; omega
  have h8 : rd b 8 = .ok (b.getD 8 0).toNat := by
    have : 8 < b.length := by omega
    rw [rd_of_lt this]; simp [List.getD, this]
  unfold parse parseLong
  rw [if_pos (by omega), h8,
    parseRate_ok b 6 14 18 _ _ (by omega) (by simp only [decide_eq_true_eq]; omega)
      (by simp only [decide_eq_true_eq]; omega),
    parseRate_ok b 5 12 16 _ _ (by omega) (by simp only [decide_eq_true_eq]; omega)
      (by simp only [decide_eq_true_eq]; omega),
    parseRate_ok b 10 15 19 _ _ (by omega) (by simp only [decide_eq_true_eq]; omega)
      (by simp only [decide_eq_true_eq]; omega),
    parseRate_ok b 9 13 17 _ _ (by omega) (by simp only [decide_eq_true_eq]; omega)
      (by simp only [decide_eq_true_eq]; omega)]
  rw [e14, e18]
  refine ⟨_, rfl, rfl, rfl, rfl, rfl, rfl, rfl, rfl, rfl, ?_, ?_, ?_, ?_⟩ <;>
    simp only [decide_eq_true_eq]

/-- **C56**, decoder: exactly two of the lengths it accepts make it read outside the buffer. -/
theorem c56_decoder_partial (b : List UInt8) :
    (parse b).Safe ↔ b.length ≠ 14 ∧ b.length ≠ 18 := by
  constructor
  · intro h
    have hbad : b.length = 14 ∨ b.length = 18 → parse b = .ub .outOfBounds := by
      intro hl
      have h8 : ∃ v, rd b 8 = .ok v := ⟨_, rd_of_lt (show 8 < b.length by omega)⟩
      have h6 : ∃ v, rd b 6 = .ok v := ⟨_, rd_of_lt (show 6 < b.length by omega)⟩
      obtain ⟨v8, h8⟩ := h8
      obtain ⟨v6, h6⟩ := h6
      unfold parse parseLong
      rw [if_pos (by omega), h8]
      rcases hl with hl | hl
      · have h14 : rd b 14 = .ub .outOfBounds := by simp [rd, hl]
        simp only [bind, Res.bind, parseRate, h6, rdIf, hl, h14]
        rfl
      · have h14 : ∃ v, rd b 14 = .ok v := ⟨_, rd_of_lt (show 14 < b.length by omega)⟩
        obtain ⟨v14, h14⟩ := h14
        have h18 : rd b 18 = .ub .outOfBounds := by simp [rd, hl]
        simp only [bind, Res.bind, parseRate, h6, rdIf, hl, h14, h18]
        rfl
    constructor
    · intro hl; rw [hbad (Or.inl hl)] at h; exact h _ rfl
    · intro hl; rw [hbad (Or.inr hl)] at h; exact h _ rfl
  · rintro ⟨h1, h2⟩
    by_cases hl : b.length = 20 ∨ b.length = 16 ∨ b.length = 12 ∨ b.length = 11
    · obtain ⟨d, hd, -⟩ := parse_long b hl
      rw [hd]; intro f hf; cases hf
    · unfold parse
      rw [if_neg (by omega)]
      split <;> (intro f hf; cases hf)

theorem enc_lt (x : Nat) : (encMbr x).m < 256 ∧ (encMbr x).e1 < 256 ∧ (encMbr x).e2 < 256 ∧
    (encMbr x).ext ≤ 2 ∧ ((encMbr x).ext ≤ 1 → (encMbr x).e2 = 0) ∧
    ((encMbr x).ext = 0 → (encMbr x).e1 = 0) := by
  unfold encMbr
  repeat' refine ite_elim (p := fun c : Coded => c.m < 256 ∧ c.e1 < 256 ∧ c.e2 < 256 ∧ c.ext ≤ 2 ∧
    (c.ext ≤ 1 → c.e2 = 0) ∧ (c.ext = 0 → c.e1 = 0)) (fun _ => ?_) (fun _ => ?_)
  all_goals
    refine ⟨?_, ?_, ?_, ?_, ?_, ?_⟩ <;> dsimp only <;> omega

theorem set_getD (l : List UInt8) (i j : Nat) (v : UInt8) (h : i < l.length) :
    (l.set i v).getD j 0 = if i = j then v else l.getD j 0 := by
  simp only [List.getD, List.getElem?_set]
  by_cases hij : i = j
  · subst hij; simp [h]
  · simp [hij]

theorem buildOctets_length (d : Profile) (h : d.octets.length = 20) :
    (buildOctets d).length = 20 := by
  simp [buildOctets, putRate, put, h]

/-- Octet by octet, what the encoder writes. -/
theorem buildOctets_getD (d : Profile) (h : d.octets.length = 20) :
    ((buildOctets d).getD 6 0).toNat = (encMbr d.mbrDl).m ∧
    ((buildOctets d).getD 14 0).toNat = (encMbr d.mbrDl).e1 ∧
    ((buildOctets d).getD 18 0).toNat = (encMbr d.mbrDl).e2 ∧
    ((buildOctets d).getD 5 0).toNat = (encMbr d.mbrUl).m ∧
    ((buildOctets d).getD 12 0).toNat = (encMbr d.mbrUl).e1 ∧
    ((buildOctets d).getD 16 0).toNat = (encMbr d.mbrUl).e2 ∧
    ((buildOctets d).getD 10 0).toNat = (encMbr d.gbrDl).m ∧
    ((buildOctets d).getD 15 0).toNat = (encMbr d.gbrDl).e1 ∧
    ((buildOctets d).getD 19 0).toNat = (encMbr d.gbrDl).e2 ∧
    ((buildOctets d).getD 9 0).toNat = (encMbr d.gbrUl).m ∧
    ((buildOctets d).getD 13 0).toNat = (encMbr d.gbrUl).e1 ∧
    ((buildOctets d).getD 17 0).toNat = (encMbr d.gbrUl).e2 ∧
    ((buildOctets d).getD 8 0).toNat = octet8 d % 256 := by
  have a := enc_lt d.mbrDl
  have b := enc_lt d.mbrUl
  have c := enc_lt d.gbrDl
  have e := enc_lt d.gbrUl
  have key : ∀ v, v < 256 → (UInt8.ofNat v).toNat = v := by
    intro v hv; simp [Nat.mod_eq_of_lt hv]
  unfold buildOctets putRate put
  refine ⟨?_, ?_, ?_, ?_, ?_, ?_, ?_, ?_, ?_, ?_, ?_, ?_, ?_⟩
  all_goals
    repeat rw [set_getD _ _ _ _ (by simp [h])]
  · simpa using key _ a.1
  · simpa using key _ a.2.1
  · simpa using key _ a.2.2.1
  · simpa using key _ b.1
  · simpa using key _ b.2.1
  · simpa using key _ b.2.2.1
  · simpa using key _ c.1
  · simpa using key _ c.2.1
  · simpa using key _ c.2.2.1
  · simpa using key _ e.1
  · simpa using key _ e.2.1
  · simpa using key _ e.2.2.1
  · simp

theorem encDelay_lt (d : Nat) : encDelay d < 64 := by
  unfold encDelay
  refine ite_elim (p := fun v => v < 64) (fun _ => by omega) (fun _ => ?_)
  refine ite_elim (p := fun v => v < 64) (fun _ => by omega) (fun _ => ?_)
  refine ite_elim (p := fun v => v < 64) (fun _ => by omega) (fun _ => ?_)
  by_cases h : d > 150
  · simp [h]
  · simp only [h, if_false]
    refine ite_elim (p := fun v => v < 64) (fun _ => by omega) (fun _ => by omega)

theorem octet8_delay (d : Profile) (h6 : d.octets6to13 = true) :
    octet8 d % 256 / 4 = encDelay d.delay := by
  have h64 := encDelay_lt d.delay
  have : (if (d.octets.getD 8 0).toNat % 4 = 0 then 1 else (d.octets.getD 8 0).toNat % 4) < 4 := by
    split <;> omega
  unfold octet8
  simp only [h6, if_true]
  revert h64 this
  generalize encDelay d.delay = e
  generalize (if (d.octets.getD 8 0).toNat % 4 = 0 then 1 else (d.octets.getD 8 0).toNat % 4) = q
  intro h1 h2
  omega

/-- The rate read back from the octets sent for a rate. -/
def readBack (x : Nat) : Nat :=
  decMbr (encMbr x).m (some (encMbr x).e1) (some (encMbr x).e2)

theorem readBack_of (x n : Nat) (h16 : 1 ≤ (encMbr x).ext → n ≥ 16) (h20 : 2 ≤ (encMbr x).ext → n ≥ 20) :
    decMbr (encMbr x).m (if n ≥ 16 then some (encMbr x).e1 else none)
      (if n ≥ 20 then some (encMbr x).e2 else none) = readBack x := by
  obtain ⟨-, -, -, h3, h4, h5⟩ := enc_lt x
  unfold readBack
  by_cases h1 : n ≥ 16
  · rw [if_pos h1]
    by_cases h2 : n ≥ 20
    · rw [if_pos h2]
    · rw [if_neg h2, h4 (by omega)]
      exact (c73_absent _ _).2
  · rw [if_neg h1, if_neg (by omega), h4 (by omega), h5 (by omega)]
    exact (c73_absent _ 0).1

/-- The rates that come back as the largest expressible rate not above them. -/
def RateGood (x : Nat) : Prop := EncGood x ∧ 0 < x ∧ (x < 576 ∨ 8640 ≤ x)

theorem readBack_best (x : Nat) (h : RateGood x) : BestRate x (readBack x) := by
  obtain ⟨v, hv, hb⟩ := (c55_encoder_partial x).mpr h.1
  have hd : DecGood (encMbr x).m := by
    obtain ⟨-, hx, h8⟩ := h
    unfold DecGood encMbr
    repeat' refine ite_elim (p := fun c : Coded => c.m ≤ 0x7f ∨ c.m = 0xfe) (fun _ => ?_) (fun _ => ?_)
    all_goals
      dsimp only
      omega
  have := (c73_decoder_partial _ _ _ v (enc_lt x).1 hv).mpr hd
  unfold readBack
  rw [this]
  exact hb

/-- **C56**, encoder: a profile with octets 6 to 13 whose downlink does not need more extension octets
than its uplink is decoded again, with its rates and its transfer delay read back.  Missing: lengths
5, 14 and 18 (`c56_profile_violated`). -/
theorem c56_profile_partial (d : Profile) (h : d.octets.length = 20) (h6 : d.octets6to13 = true)
    (hl : buildLen d ≠ 14 ∧ buildLen d ≠ 18) :
    ∃ d', parse (build d) = .ok d' ∧
      d'.mbrDl = readBack d.mbrDl ∧ d'.mbrUl = readBack d.mbrUl ∧
      d'.gbrDl = readBack d.gbrDl ∧ d'.gbrUl = readBack d.gbrUl ∧
      d'.delay = decDelay (encDelay d.delay) ∧ d'.octets6to13 = true ∧
      (d.octet14 = true → d'.octet14 = true) ∧
      (RateGood d.mbrDl → BestRate d.mbrDl d'.mbrDl) ∧ (RateGood d.mbrUl → BestRate d.mbrUl d'.mbrUl) ∧
      (RateGood d.gbrDl → BestRate d.gbrDl d'.gbrDl) ∧ (RateGood d.gbrUl → BestRate d.gbrUl d'.gbrUl) := by
  obtain ⟨-, -, -, a3, a4, a5⟩ := enc_lt d.mbrDl
  obtain ⟨-, -, -, b3, b4, b5⟩ := enc_lt d.mbrUl
  obtain ⟨-, -, -, c3, c4, c5⟩ := enc_lt d.gbrDl
  obtain ⟨-, -, -, e3, e4, e5⟩ := enc_lt d.gbrUl
  have hlen : (buildLen d = 20 ∨ buildLen d = 16 ∨ buildLen d = 12 ∨ buildLen d = 11) ∧
      (1 ≤ (encMbr d.mbrDl).ext → buildLen d ≥ 16) ∧ (2 ≤ (encMbr d.mbrDl).ext → buildLen d ≥ 20) ∧
      (1 ≤ (encMbr d.mbrUl).ext → buildLen d ≥ 16) ∧ (2 ≤ (encMbr d.mbrUl).ext → buildLen d ≥ 20) ∧
      (1 ≤ (encMbr d.gbrDl).ext → buildLen d ≥ 16) ∧ (2 ≤ (encMbr d.gbrDl).ext → buildLen d ≥ 20) ∧
      (1 ≤ (encMbr d.gbrUl).ext → buildLen d ≥ 16) ∧ (2 ≤ (encMbr d.gbrUl).ext → buildLen d ≥ 20) ∧
      (d.octet14 = true → buildLen d ≥ 12) := by
    revert hl
    unfold buildLen
    simp only [h6, if_true]
    cases d.octet14 <;> simp only [Bool.false_eq_true, if_true, if_false, false_implies, and_true,
      forall_const]
    all_goals
      repeat' split
      all_goals omega
  obtain ⟨hlen, la1, la2, lb1, lb2, lc1, lc2, le1, le2, l14⟩ := hlen
  have hbl : (build d).length = buildLen d := by
    simp only [build, List.length_take, buildOctets_length d h]; omega
  obtain ⟨d', hp, -, p6, p14, -, -, -, -, pd, pa, pb, pc, pe⟩ := parse_long (build d) (by rw [hbl]; exact hlen)
  have hget : ∀ i, i < buildLen d → (build d).getD i 0 = (buildOctets d).getD i 0 := by
    intro i hi
    simp only [build, List.getD, List.getElem?_take]
    rw [if_pos hi]
  obtain ⟨g1, g2, g3, g4, g5, g6, g7, g8, g9, g10, g11, g12, g13⟩ := buildOctets_getD d h
  have hIf : ∀ (k i : Nat), i < k → (if (build d).length ≥ k then some ((build d).getD i 0).toNat else none) =
      (if buildLen d ≥ k then some ((buildOctets d).getD i 0).toNat else none) := by
    intro k i hik
    rw [hbl]
    by_cases hk : buildLen d ≥ k
    · rw [if_pos hk, if_pos hk, hget i (by omega)]
    · rw [if_neg hk, if_neg hk]
  rw [hIf 16 14 (by omega), hIf 20 18 (by omega), hget 6 (by omega), g1, g2, g3,
    readBack_of _ _ la1 la2] at pa
  rw [hIf 16 12 (by omega), hIf 20 16 (by omega), hget 5 (by omega), g4, g5, g6,
    readBack_of _ _ lb1 lb2] at pb
  rw [hIf 16 15 (by omega), hIf 20 19 (by omega), hget 10 (by omega), g7, g8, g9,
    readBack_of _ _ lc1 lc2] at pc
  rw [hIf 16 13 (by omega), hIf 20 17 (by omega), hget 9 (by omega), g10, g11, g12,
    readBack_of _ _ le1 le2] at pe
  refine ⟨d', hp, pa, pb, pc, pe, ?_, p6, ?_, ?_, ?_, ?_, ?_⟩
  · rw [pd, hget 8 (by omega), g13]
    rw [octet8_delay d h6]
  · intro h; rw [p14, hbl]; simpa using l14 h
  · intro h; rw [pa]; exact readBack_best _ h
  · intro h; rw [pb]; exact readBack_best _ h
  · intro h; rw [pc]; exact readBack_best _ h
  · intro h; rw [pe]; exact readBack_best _ h

/-- A profile with the given rates and nothing else. -/
def sample (o6 : Bool) (dl ul : Nat) : Profile :=
  { octets := List.replicate 20 0, octets6to13 := o6, octet14 := false, dlExt := false,
    ulExt := false, dlExt2 := false, ulExt2 := false, delay := 300, mbrDl := dl, mbrUl := ul,
    gbrDl := 64, gbrUl := 64 }

example : (sample true 100000 50000).octets.length = 20 ∧ buildLen (sample true 100000 50000) = 16 := by
  decide +kernel

/-- C56 is violated: a profile without octets 6 to 13 is built with five octets, which the decoder
refuses; one whose downlink needs an extension octet and whose uplink does not is built with 14
octets, and the decoder reads past them. -/
theorem c56_profile_violated : ¬ C56Statement ∧
    (∀ d, parse (build (sample false 64 64)) ≠ .ok d) ∧
    parse (build (sample true 100000 64)) = .ub .outOfBounds ∧
    parse (build (sample true 300000 64)) = .ub .outOfBounds := by
  have h1 : parse (build (sample true 100000 64)) = .ub .outOfBounds := by decide +kernel
  have h2 : parse (build (sample false 64 64)) = .err .minus1 := by decide +kernel
  refine ⟨fun h => ?_, fun d hd => ?_, h1, by decide +kernel⟩
  · exact h.1 _ _ h1
  · rw [h2] at hd; cases hd

/-! ## What a receiver following the standard reads -/

/-- The rate asked for. -/
def asked (d : Profile) : Which → Nat
  | .mbrUl => d.mbrUl
  | .mbrDl => d.mbrDl
  | .gbrUl => d.gbrUl
  | .gbrDl => d.gbrDl

/-- **C75**, full statement: a receiver that follows the standard reads from the profile the rates the
encoder chose. -/
def C75Statement : Prop :=
  ∀ d : Profile, d.octets.length = 20 → d.octets6to13 = true →
    ∀ w, readStd (build d) w = sent (asked d w)

/-- C75 is violated: with 100 Mbit/s downlink and 50 Mbit/s uplink the receiver reads them swapped. -/
theorem c75_order_violated : ¬ C75Statement ∧
    readStd (build (sample true 100000 50000)) .mbrDl = some 50000 ∧
    readStd (build (sample true 100000 50000)) .mbrUl = some 100000 := by
  refine ⟨fun h => ?_, by decide +kernel, by decide +kernel⟩
  have := h (sample true 100000 50000) (by decide) rfl .mbrDl
  revert this
  decide +kernel

/-- **C75**, proved part: if no rate needs an extension octet, or uplink and downlink ask for the same rates, the
receiver reads what was chosen.  Missing: different rates with extension octets. -/
theorem c75_order_partial (d : Profile) (h : d.octets.length = 20) (h6 : d.octets6to13 = true)
    (hr : (∀ w, (encMbr (asked d w)).ext = 0) ∨ (d.mbrUl = d.mbrDl ∧ d.gbrUl = d.gbrDl)) (w : Which) :
    readStd (build d) w = sent (asked d w) := by
  obtain ⟨g1, g2, g3, g4, g5, g6, g7, g8, g9, g10, g11, g12, -⟩ := buildOctets_getD d h
  have hget : ∀ i, i < buildLen d → (build d).getD i 0 = (buildOctets d).getD i 0 := by
    intro i hi
    simp only [build, List.getD, List.getElem?_take]
    rw [if_pos hi]
  have hget0 : ∀ i, ¬ i < buildLen d → (build d).getD i 0 = 0 := by
    intro i hi
    simp only [build, List.getD, List.getElem?_take]
    rw [if_neg hi]; rfl
  have hmin : 11 ≤ buildLen d := by
    unfold buildLen
    simp only [h6, if_true]
    repeat' split
    all_goals omega
  rcases hr with hr | hr
  · have z : ∀ w, (encMbr (asked d w)).e1 = 0 ∧ (encMbr (asked d w)).e2 = 0 := by
      intro w
      obtain ⟨-, -, -, -, a, b⟩ := enc_lt (asked d w)
      exact ⟨b (hr w), a (by rw [hr w]; omega)⟩
    have hz : ∀ i, 12 ≤ i → i < 20 → ((build d).getD i 0).toNat = 0 := by
      intro i h1 h2
      by_cases hi : i < buildLen d
      · rw [hget i hi]
        have : i = 12 ∨ i = 13 ∨ i = 14 ∨ i = 15 ∨ i = 16 ∨ i = 17 ∨ i = 18 ∨ i = 19 := by omega
        rcases this with rfl | rfl | rfl | rfl | rfl | rfl | rfl | rfl
        · rw [g5]; exact (z .mbrUl).1
        · rw [g11]; exact (z .gbrUl).1
        · rw [g2]; exact (z .mbrDl).1
        · rw [g8]; exact (z .gbrDl).1
        · rw [g6]; exact (z .mbrUl).2
        · rw [g12]; exact (z .gbrUl).2
        · rw [g3]; exact (z .mbrDl).2
        · rw [g9]; exact (z .gbrDl).2
      · rw [hget0 i hi]; rfl
    cases w <;> simp only [readStd, place, sent]
    · rw [hz 14 (by omega) (by omega), hz 18 (by omega) (by omega), hget 5 (by omega), g4,
        (z .mbrUl).1, (z .mbrUl).2]; rfl
    · rw [hz 12 (by omega) (by omega), hz 16 (by omega) (by omega), hget 6 (by omega), g1,
        (z .mbrDl).1, (z .mbrDl).2]; rfl
    · rw [hz 15 (by omega) (by omega), hz 19 (by omega) (by omega), hget 9 (by omega), g10,
        (z .gbrUl).1, (z .gbrUl).2]; rfl
    · rw [hz 13 (by omega) (by omega), hz 17 (by omega) (by omega), hget 10 (by omega), g7,
        (z .gbrDl).1, (z .gbrDl).2]; rfl
  · obtain ⟨-, -, -, a3, a4, a5⟩ := enc_lt d.mbrDl
    obtain ⟨-, -, -, c3, c4, c5⟩ := enc_lt d.gbrDl
    have hlen : ((encMbr d.mbrDl).ext = 2 ∨ (encMbr d.gbrDl).ext = 2 → buildLen d = 20) ∧
        ((encMbr d.mbrDl).ext = 1 ∨ (encMbr d.gbrDl).ext = 1 → buildLen d ≥ 16) := by
      unfold buildLen
      simp only [hr.1, hr.2, h6, if_true]
      repeat' split
      all_goals omega
    have hext : ∀ i, (12 ≤ i → i < 16 → ¬ i < buildLen d → (encMbr d.mbrDl).ext = 0 ∧
        (encMbr d.gbrDl).ext = 0) ∧ (16 ≤ i → i < 20 → ¬ i < buildLen d →
        (encMbr d.mbrDl).ext ≤ 1 ∧ (encMbr d.gbrDl).ext ≤ 1) := by
      intro i; omega
    have r : ∀ i v, ((buildOctets d).getD i 0).toNat = v → (¬ i < buildLen d → v = 0) →
        ((build d).getD i 0).toNat = v := by
      intro i v h1 h2
      by_cases hi : i < buildLen d
      · rw [hget i hi, h1]
      · rw [hget0 i hi, h2 hi]; rfl
    rw [hr.1] at g5 g6
    rw [hr.2] at g11 g12
    cases w <;> simp only [readStd, place, sent, asked, hr.1, hr.2]
    · rw [r 14 _ g2 (fun hi => a5 ((hext 14).1 (by omega) (by omega) hi).1),
        r 18 _ g3 (fun hi => a4 ((hext 18).2 (by omega) (by omega) hi).1), hget 5 (by omega), g4, hr.1]
    · rw [r 12 _ g5 (fun hi => a5 ((hext 12).1 (by omega) (by omega) hi).1),
        r 16 _ g6 (fun hi => a4 ((hext 16).2 (by omega) (by omega) hi).1), hget 6 (by omega), g1]
    · rw [r 15 _ g8 (fun hi => c5 ((hext 15).1 (by omega) (by omega) hi).2),
        r 19 _ g9 (fun hi => c4 ((hext 19).2 (by omega) (by omega) hi).2), hget 9 (by omega), g10, hr.2]
    · rw [r 13 _ g11 (fun hi => c5 ((hext 13).1 (by omega) (by omega) hi).2),
        r 17 _ g12 (fun hi => c4 ((hext 17).2 (by omega) (by omega) hi).2), hget 10 (by omega), g7]

example : (∀ w, (encMbr (asked (sample true 2000 500) w)).ext = 0) ∧
    readStd (build (sample true 2000 500)) .mbrDl = some 1984 := by
  refine ⟨fun w => by cases w <;> decide +kernel, by decide +kernel⟩

end Verif.Props
