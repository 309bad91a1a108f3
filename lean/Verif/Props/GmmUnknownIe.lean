import Verif.Props.GmmProc
/-!
# C191: elements the library makes no use of do not change how a message is taken
-/
namespace Verif.Props
open Verif Verif.Gmm Verif.Gsm

/-! ## Specification -/

/-- An information element of type 4 (3GPP TS 24.007, 11.2.1.1.4): identifier, length, value. -/
def tlvElement (tag : UInt8) (v : Octets) : Octets := tag :: UInt8.ofNat v.length :: v

/-- Elements of type 4 that 3GPP TS 24.008 (9.4.2, 9.4.15) allows at the end of ATTACH ACCEPT and ROUTING AREA UPDATE
ACCEPT and that the library makes no use of: T3302, emergency numbers, MBMS context status, T3319, T3323, T3312
extended, equivalent PLMNs, additional network features, T3324, extended DRX. -/
def otherTags : List UInt8 := [0x2a, 0x34, 0x35, 0x37, 0x38, 0x39, 0x4a, 0x66, 0x6b, 0x6e]

/-- ATTACH ACCEPT or ROUTING AREA UPDATE ACCEPT with an optional element. -/
def IsAccept (b : Octets) : Prop :=
  (∃ m, b = 0x08 :: 0x02 :: m ∧ 9 < m.length) ∨ ∃ m, b = 0x08 :: 0x09 :: m ∧ 8 < m.length

/-- **C191**, full statement.  When a mobile station accepts ATTACH ACCEPT or ROUTING AREA UPDATE ACCEPT, it accepts
the message with one of these elements added as well, and does the same. -/
def C191Statement : Prop :=
  ∀ cfg ok g t b r tag v, GmmReach cfg g t → IsAccept b → gmmStep cfg ok g (.rx b) = .ok r → r.rc = none →
    tag ∈ otherTags → v.length < 256 → gmmStep cfg ok g (.rx (b ++ tlvElement tag v)) = .ok r

/-! ## Parsing -/

theorem rd_mono {b x : Octets} {i v : Nat} (h : rd b i = .ok v) : rd (b ++ x) i = .ok v := by
  have hi : i < b.length := rd_safe_iff.1 (by rw [h]; exact Res.safe_ok _)
  rw [rd_of_lt hi] at h
  rw [rd_of_lt (by rw [List.length_append]; omega), List.getElem_append_left hi]
  exact h

theorem rdN_mono {b x : Octets} {i n : Nat} {v : Octets} (h : rdN b i n = .ok v) : rdN (b ++ x) i n = .ok v := by
  unfold rdN at h ⊢
  split at h
  · rename_i hl
    rw [if_pos (by rw [List.length_append]; omega)]
    rw [List.drop_append_of_le_length (by omega), List.take_append_of_le_length (by rw [List.length_drop]; omega)]
    exact h
  · cases h

theorem ieParseOne_app {d : Nat → IeType} {b : Octets} {pos : Nat} {e : Ie} {n : Nat} (x : Octets) (hp : pos < b.length)
    (h : ieParseOne d b pos = .ok (e, n)) :
    ieParseOne d (b ++ x) pos = .ok (e, n) ∧ 1 ≤ n ∧ pos + n ≤ b.length := by
  unfold ieParseOne at h ⊢
  obtain ⟨t, ht, h⟩ := bind_eq_ok.1 h
  rw [rd_mono ht]
  simp only [Res.bind_ok]
  have hlen : (b ++ x).length = b.length + x.length := List.length_append
  split at h
  · rename_i hs
    injection h with h
    injection h with h1 h2
    subst h1 h2
    exact ⟨by rw [if_pos hs], by omega, by omega⟩
  · rename_i hs
    rw [if_neg hs]
    split at h
    · split at h
      · cases h
      · injection h with h
        injection h with h1 h2
        subst h1 h2
        exact ⟨by rw [if_neg (by omega)], by omega, by omega⟩
    · split at h
      · cases h
      · injection h with h
        injection h with h1 h2
        subst h1 h2
        exact ⟨by rw [if_neg (by omega)], by omega, by omega⟩
    · split at h
      · cases h
      · obtain ⟨l, hl, h⟩ := bind_eq_ok.1 h
        split at h
        · cases h
        · injection h with h
          injection h with h1 h2
          subst h1 h2
          refine ⟨?_, by omega, by omega⟩
          rw [if_neg (by omega), rd_mono hl]
          simp only [Res.bind_ok]
          rw [if_neg (by omega)]
    · cases h
    · cases h

/-- The elements of a message are found again when something is added. -/
theorem ieParseFrom_app {d : Nat → IeType} {b : Octets} (x : Octets) : ∀ (fuel pos : Nat) (l : List Ie),
    ieParseFrom d b fuel pos = .ok l → b.length ≤ pos + fuel → pos ≤ b.length →
    l.length + pos ≤ b.length ∧ ∀ f, ieParseFrom d (b ++ x) (l.length + f) pos =
      (match ieParseFrom d (b ++ x) f b.length with
       | .ok l' => .ok (l ++ l')
       | .err e => .err e
       | .ub u => .ub u) := by
  have base : ∀ pos : Nat, pos = b.length → ∀ f, ieParseFrom d (b ++ x) (([] : List Ie).length + f) pos =
      (match ieParseFrom d (b ++ x) f b.length with
       | .ok l' => .ok ([] ++ l')
       | .err e => .err e
       | .ub u => .ub u) := by
    rintro pos rfl f
    rw [List.length_nil, Nat.zero_add]
    cases ieParseFrom d (b ++ x) f b.length <;> rfl
  intro fuel
  induction fuel with
  | zero =>
    intro pos l h hf hp
    injection h with h
    subst h
    exact ⟨by simpa using hp, base pos (by omega)⟩
  | succ fuel ih =>
    intro pos l h hf hp
    unfold ieParseFrom at h
    split at h
    · injection h with h
      subst h
      exact ⟨by simpa using hp, base pos (by omega)⟩
    · rename_i hlt
      split at h
      · cases h
      · cases h
      · rename_i e n h1
        obtain ⟨k1, k2, k3⟩ := ieParseOne_app x (by omega) h1
        split at h
        · cases h
        · cases h
        · rename_i l1 h2
          injection h with h
          subst h
          obtain ⟨k4, k5⟩ := ih (pos + n) l1 h2 (by omega) k3
          refine ⟨by rw [List.length_cons]; omega, fun f => ?_⟩
          have hl : (e :: l1).length + f = (l1.length + f) + 1 := by rw [List.length_cons]; omega
          rw [hl]
          rw [ieParseFrom.eq_2]
          rw [if_neg (by rw [List.length_append]; omega), k1]
          dsimp only
          rw [k5 f]
          cases ieParseFrom d (b ++ x) f b.length <;> rfl

/-- What one more element of type 4 does to the parser. -/
theorem ieParse_tlv {d : Nat → IeType} {b : Octets} {pos : Nat} {l : List Ie} {tag : UInt8} {v : Octets}
    (h : ieParse d b pos = .ok l) (hp : pos ≤ b.length) (hv : v.length < 256) (hs : d (tag.toNat / 16 * 16) ≠ .singleTv) :
    (d tag.toNat = .tlv →
      ieParse d (b ++ tlvElement tag v) pos = .ok (l ++ [⟨tag.toNat, b.length + 2, v.length⟩])) ∧
    (d tag.toNat = .unknown → ieParse d (b ++ tlvElement tag v) pos = .err .einval) := by
  obtain ⟨k1, k2⟩ := ieParseFrom_app (tlvElement tag v) b.length pos l h (by omega) hp
  have hx : (tlvElement tag v).length = v.length + 2 := by simp [tlvElement]
  have hlen : (b ++ tlvElement tag v).length = b.length + (v.length + 2) := by rw [List.length_append, hx]
  have h0 : rd (b ++ tlvElement tag v) b.length = .ok tag.toNat := by
    rw [rd_of_lt (by omega), List.getElem_append_right (Nat.le_refl _)]
    simp [tlvElement]
  have h1 : rd (b ++ tlvElement tag v) (b.length + 1) = .ok v.length := by
    rw [rd_of_lt (by omega), List.getElem_append_right (by omega)]
    have : (UInt8.ofNat v.length).toNat = v.length := by simp [hv]
    simp [tlvElement, hv]
  have hfuel : (b ++ tlvElement tag v).length = l.length + ((b.length + v.length - l.length) + 1 + 1) := by omega
  have hone : ieParseOne d (b ++ tlvElement tag v) b.length =
      (match d tag.toNat with
       | .tlv => .ok (⟨tag.toNat, b.length + 2, v.length⟩, v.length + 2)
       | .unknown => .err .einval
       | _ => ieParseOne d (b ++ tlvElement tag v) b.length) := by
    split
    · rename_i ht
      unfold ieParseOne
      rw [h0]
      simp only [Res.bind_ok]
      rw [if_neg hs, ht]
      dsimp only
      rw [if_neg (by omega), h1]
      simp only [Res.bind_ok]
      rw [if_neg (by omega)]
    · rename_i ht
      unfold ieParseOne
      rw [h0]
      simp only [Res.bind_ok]
      rw [if_neg hs, ht]
    · rfl
  refine ⟨fun ht => ?_, fun ht => ?_⟩
  · rw [ht] at hone
    dsimp only at hone
    unfold ieParse
    rw [hfuel, k2]
    have : ieParseFrom d (b ++ tlvElement tag v) ((b.length + v.length - l.length) + 1 + 1) b.length =
        .ok [⟨tag.toNat, b.length + 2, v.length⟩] := by
      unfold ieParseFrom
      rw [if_neg (by omega), hone]
      dsimp only
      unfold ieParseFrom
      rw [if_pos (by omega)]
    rw [this]
  · rw [ht] at hone
    dsimp only at hone
    unfold ieParse
    rw [hfuel, k2]
    have : ieParseFrom d (b ++ tlvElement tag v) ((b.length + v.length - l.length) + 1 + 1) b.length = .err .einval := by
      unfold ieParseFrom
      rw [if_neg (by omega), hone]
    rw [this]

theorem ieGet_app {l : List Ie} {e : Ie} {t : Nat} (h : e.tag ≠ t) : ieGet (l ++ [e]) t = ieGet l t := by
  unfold ieGet
  rw [List.find?_append]
  cases l.find? (fun e => decide (e.tag = t)) with
  | some x => rfl
  | none => simp [h]

theorem ieGetLen_app {l : List Ie} {e : Ie} {t n : Nat} (h : e.tag ≠ t) : ieGetLen (l ++ [e]) t n = ieGetLen l t n := by
  unfold ieGetLen
  rw [ieGet_app h]

/-! ## The handlers -/

section
variable {cfg : GmmCfg} {b x : Octets} {l : List Ie} {e : Ie} {g : Gmme}

theorem applySig_app (h : e.tag ≠ 0x19) {r : Gmme} (hr : applySig b l g = .ok r) :
    applySig (b ++ x) (l ++ [e]) g = .ok r := by
  unfold applySig at hr ⊢
  rw [ieGet_app h]
  split at hr
  · obtain ⟨v, hv, hr⟩ := bind_eq_ok.1 hr
    have : ieVal (b ++ x) _ = .ok v := rdN_mono hv
    rw [this]
    exact hr
  · exact hr

theorem applyReady_app (h : e.tag ≠ 0x17) {r : Gmme} (hr : applyReady cfg b l g = .ok r) :
    applyReady cfg (b ++ x) (l ++ [e]) g = .ok r := by
  unfold applyReady at hr ⊢
  rw [ieGet_app h]
  split at hr
  · obtain ⟨v, hv, hr⟩ := bind_eq_ok.1 hr
    rw [rd_mono hv]
    exact hr
  · exact hr

theorem applyPtmsi_app (h : e.tag ≠ 0x18) {r : Option Gmme} (hr : applyPtmsi b l g = .ok r) :
    applyPtmsi (b ++ x) (l ++ [e]) g = .ok r := by
  unfold applyPtmsi at hr ⊢
  rw [ieGet_app h]
  split at hr
  · obtain ⟨v, hv, hr⟩ := bind_eq_ok.1 hr
    have : ieVal (b ++ x) _ = .ok v := rdN_mono hv
    rw [this]
    exact hr
  · exact hr

theorem imeisvOk_app (h : e.tag ≠ 0x23) {r : Bool} (hr : imeisvOk b l = .ok r) : imeisvOk (b ++ x) (l ++ [e]) = .ok r := by
  unfold imeisvOk at hr ⊢
  rw [ieGet_app h]
  split at hr
  · obtain ⟨v, hv, hr⟩ := bind_eq_ok.1 hr
    have : ieVal (b ++ x) _ = .ok v := rdN_mono hv
    rw [this]
    exact hr
  · exact hr

theorem applyNpdu_app (h : e.tag ≠ 0x26) {r : Gmme} (hr : applyNpdu b l g = .ok r) :
    applyNpdu (b ++ x) (l ++ [e]) g = .ok r := by
  unfold applyNpdu at hr ⊢
  rw [ieGetLen_app h]
  split at hr
  · obtain ⟨v, hv, hr⟩ := bind_eq_ok.1 hr
    rw [rdN_mono hv]
    exact hr
  · exact hr

theorem applyPdpStatus_app (h : e.tag ≠ 0x32) {r : Gmme} (hr : applyPdpStatus b l g = .ok r) :
    applyPdpStatus (b ++ x) (l ++ [e]) g = .ok r := by
  unfold applyPdpStatus at hr ⊢
  rw [ieGetLen_app h]
  split at hr
  · obtain ⟨v, hv, hr⟩ := bind_eq_ok.1 hr
    rw [rdN_mono hv]
    exact hr
  · exact hr

end

/-- The elements added are of a type the parser of the library knows. -/
def knownTags : List UInt8 := [0x2a, 0x35]

theorem otherTag_type {tag : UInt8} (h : tag ∈ otherTags) : gmmIes (tag.toNat / 16 * 16) ≠ .singleTv ∧
    gmmIes tag.toNat = if tag ∈ knownTags then .tlv else .unknown := by
  have : ∀ tag ∈ otherTags, gmmIes (tag.toNat / 16 * 16) ≠ .singleTv ∧
    gmmIes tag.toNat = if tag ∈ knownTags then .tlv else .unknown := by decide +kernel
  exact this tag h

theorem knownTag_tag {tag : UInt8} (h : tag ∈ knownTags) : tag ∈ otherTags ∧
    ∀ t ∈ [0x17, 0x18, 0x19, 0x23, 0x26, 0x32], tag.toNat ≠ t := by
  have : ∀ tag ∈ knownTags, tag ∈ otherTags ∧ ∀ t ∈ [0x17, 0x18, 0x19, 0x23, 0x26, 0x32], tag.toNat ≠ t := by decide +kernel
  exact this tag h

/-- The optional part of ATTACH ACCEPT with one more element. -/
theorem attAccIes_tlv {cfg : GmmCfg} {b : Octets} {g : Gmme} {y : Gmme} {tag : UInt8} {v : Octets} (hb : 11 < b.length)
    (hv : v.length < 256) (hr : attAccIes cfg b g = .ok (y, true)) :
    (tag ∈ knownTags → attAccIes cfg (b ++ tlvElement tag v) g = .ok (y, true)) ∧
    (tag ∈ otherTags → tag ∉ knownTags → attAccIes cfg (b ++ tlvElement tag v) g = .ok (g, false)) := by
  have hlen : (b ++ tlvElement tag v).length > 11 := by rw [List.length_append]; omega
  unfold attAccIes at hr ⊢
  rw [if_pos hb] at hr
  rw [if_pos hlen]
  split at hr
  · cases hr
  · cases hr
  · rename_i ies hp
    refine ⟨fun hk => ?_, fun ho hk => ?_⟩
    · obtain ⟨t1, t2⟩ := knownTag_tag hk
      obtain ⟨t3, t4⟩ := otherTag_type t1
      rw [if_pos hk] at t4
      rw [(ieParse_tlv hp (by omega) hv t3).1 t4]
      dsimp only
      obtain ⟨g1, h1, hr⟩ := bind_eq_ok.1 hr
      obtain ⟨g2, h2, hr⟩ := bind_eq_ok.1 hr
      obtain ⟨g3, h3, hr⟩ := bind_eq_ok.1 hr
      rw [applySig_app (t2 _ (by decide)) h1]
      simp only [Res.bind_ok]
      rw [applyReady_app (t2 _ (by decide)) h2]
      simp only [Res.bind_ok]
      rw [applyPtmsi_app (t2 _ (by decide)) h3]
      exact hr
    · obtain ⟨t3, t4⟩ := otherTag_type ho
      rw [if_neg hk] at t4
      rw [(ieParse_tlv hp (by omega) hv t3).2 t4]

/-- The optional part of ROUTING AREA UPDATE ACCEPT with one more element. -/
theorem rauAccIes_tlv {cfg : GmmCfg} {b : Octets} {g : Gmme} {y : Gmme} {tag : UInt8} {v : Octets} (hb : 10 < b.length)
    (hv : v.length < 256) (hr : rauAccIes cfg b g = .ok (y, true)) :
    (tag ∈ knownTags → rauAccIes cfg (b ++ tlvElement tag v) g = .ok (y, true)) ∧
    (tag ∈ otherTags → tag ∉ knownTags → rauAccIes cfg (b ++ tlvElement tag v) g = .ok (g, false)) := by
  have hlen : (b ++ tlvElement tag v).length > 10 := by rw [List.length_append]; omega
  unfold rauAccIes at hr ⊢
  rw [if_pos hb] at hr
  rw [if_pos hlen]
  split at hr
  · cases hr
  · cases hr
  · rename_i ies hp
    refine ⟨fun hk => ?_, fun ho hk => ?_⟩
    · obtain ⟨t1, t2⟩ := knownTag_tag hk
      obtain ⟨t3, t4⟩ := otherTag_type t1
      rw [if_pos hk] at t4
      rw [(ieParse_tlv hp (by omega) hv t3).1 t4]
      dsimp only
      obtain ⟨g1, h1, hr⟩ := bind_eq_ok.1 hr
      obtain ⟨g2, h2, hr⟩ := bind_eq_ok.1 hr
      rw [applySig_app (t2 _ (by decide)) h1]
      simp only [Res.bind_ok]
      rw [applyPtmsi_app (t2 _ (by decide)) h2]
      simp only [Res.bind_ok]
      split at hr
      · exact hr
      · obtain ⟨im, h3, hr⟩ := bind_eq_ok.1 hr
        rw [imeisvOk_app (t2 _ (by decide)) h3]
        simp only [Res.bind_ok]
        split at hr
        · rename_i him
          rw [if_pos him]
          unfold rauAccRest at hr ⊢
          obtain ⟨g3, h4, hr⟩ := bind_eq_ok.1 hr
          obtain ⟨g4, h5, hr⟩ := bind_eq_ok.1 hr
          obtain ⟨g5, h6, hr⟩ := bind_eq_ok.1 hr
          rw [applyNpdu_app (t2 _ (by decide)) h4]
          simp only [Res.bind_ok]
          rw [applyReady_app (t2 _ (by decide)) h5]
          simp only [Res.bind_ok]
          rw [applyPdpStatus_app (t2 _ (by decide)) h6]
          exact hr
        · cases hr
    · obtain ⟨t3, t4⟩ := otherTag_type ho
      rw [if_neg hk] at t4
      rw [(ieParse_tlv hp (by omega) hv t3).2 t4]

/-! ## C191 -/

theorem readyStop_ids (g : Gmme) : (readyStop g).tlli = g.tlli ∧ (readyStop g).ptmsi = g.ptmsi := by
  unfold readyStop t3312Start
  split
  · split <;> exact ⟨rfl, rfl⟩
  · exact ⟨rfl, rfl⟩

theorem applyFixed_ids (g : Gmme) (t : Nat) (f : Bool) (ra : Octets) :
    (applyFixed g t f ra).tlli = g.tlli ∧ (applyFixed g t f ra).ptmsi = g.ptmsi := by
  unfold applyFixed t3312Stop
  by_cases h : tmrAssigned t = 0 <;> cases f
  · rw [if_pos h]; exact ⟨rfl, rfl⟩
  · rw [if_pos h, if_pos rfl]; exact readyStop_ids _
  · rw [if_neg h]; exact ⟨rfl, rfl⟩
  · rw [if_neg h, if_pos rfl]; exact readyStop_ids _

/-- What an accepted message with one more element does. -/
theorem accept_tlv {cfg : GmmCfg} {ok : GmmOut → Bool} {g : Gmme} {b : Octets} {r : GmmStep} {tag : UInt8} {v : Octets}
    (hb : IsAccept b) (hr : gmmStep cfg ok g (.rx b) = .ok r) (hrc : r.rc = none) (hv : v.length < 256) :
    (tag ∈ knownTags → gmmStep cfg ok g (.rx (b ++ tlvElement tag v)) = .ok r) ∧
    (tag ∈ otherTags → tag ∉ knownTags → ∃ g', gmmStep cfg ok g (.rx (b ++ tlvElement tag v)) = .ok ⟨g', [], some .einval⟩ ∧
      g'.st = g.st ∧ g'.tlli = g.tlli ∧ g'.ptmsi = g.ptmsi) := by
  rcases hb with ⟨m, rfl, hm⟩ | ⟨m, rfl, hm⟩
  · have e1 : ∀ n : Octets, gmmStep cfg ok g (.rx (0x08 :: 0x02 :: n)) = rxAttAcc cfg ok g (0x08 :: 0x02 :: n) := fun n => rfl
    rw [List.cons_append, List.cons_append, e1]
    rw [e1] at hr
    have hl : (0x08 :: 0x02 :: m : Octets).length = m.length + 2 := rfl
    have hl2 : ((0x08 :: 0x02 :: m : Octets) ++ tlvElement tag v).length ≥ 11 := by rw [List.length_append]; omega
    unfold rxAttAcc at hr
    rw [if_neg (by omega)] at hr
    obtain ⟨o, h1, hr⟩ := bind_eq_ok.1 hr
    obtain ⟨t, h2, hr⟩ := bind_eq_ok.1 hr
    obtain ⟨ra, h3, hr⟩ := bind_eq_ok.1 hr
    obtain ⟨⟨y, ya⟩, h4, hr⟩ := bind_eq_ok.1 hr
    have hya : ya = true := by
      cases ya with
      | true => rfl
      | false =>
        exfalso
        injection hr with hr
        subst hr
        cases hrc
    subst hya
    obtain ⟨k1, k2⟩ := attAccIes_tlv (tag := tag) (v := v) (by omega) hv h4
    rw [← List.cons_append, ← List.cons_append]
    unfold rxAttAcc
    rw [if_neg (by omega), rd_mono h1]
    simp only [Res.bind_ok]
    rw [rd_mono h2]
    simp only [Res.bind_ok]
    rw [rdN_mono h3]
    simp only [Res.bind_ok]
    refine ⟨fun hk => ?_, fun ho hk => ?_⟩
    · rw [k1 hk]; exact hr
    · rw [k2 ho hk]
      have hs := applyFixed_same g t (decide (o / 16 ≠ 0)) ra
      refine ⟨_, rfl, hs.st, ?_, ?_⟩
      · exact (applyFixed_ids ..).1
      · exact (applyFixed_ids ..).2
  · have e1 : ∀ n : Octets, gmmStep cfg ok g (.rx (0x08 :: 0x09 :: n)) = rxRauAcc cfg ok g (0x08 :: 0x09 :: n) := fun n => rfl
    rw [List.cons_append, List.cons_append, e1]
    rw [e1] at hr
    have hl : (0x08 :: 0x09 :: m : Octets).length = m.length + 2 := rfl
    have hl2 : ((0x08 :: 0x09 :: m : Octets) ++ tlvElement tag v).length ≥ 11 := by rw [List.length_append]; omega
    unfold rxRauAcc at hr
    rw [if_neg (by omega)] at hr
    obtain ⟨o, h1, hr⟩ := bind_eq_ok.1 hr
    obtain ⟨t, h2, hr⟩ := bind_eq_ok.1 hr
    obtain ⟨ra, h3, hr⟩ := bind_eq_ok.1 hr
    obtain ⟨⟨y, ya⟩, h4, hr⟩ := bind_eq_ok.1 hr
    have hya : ya = true := by
      cases ya with
      | true => rfl
      | false =>
        exfalso
        injection hr with hr
        subst hr
        cases hrc
    subst hya
    obtain ⟨k1, k2⟩ := rauAccIes_tlv (tag := tag) (v := v) (by omega) hv h4
    rw [← List.cons_append, ← List.cons_append]
    unfold rxRauAcc
    rw [if_neg (by omega), rd_mono h1]
    simp only [Res.bind_ok]
    rw [rd_mono h2]
    simp only [Res.bind_ok]
    rw [rdN_mono h3]
    simp only [Res.bind_ok]
    refine ⟨fun hk => ?_, fun ho hk => ?_⟩
    · rw [k1 hk]; exact hr
    · rw [k2 ho hk]
      have hs := applyFixed_same g t (decide (o % 16 ≠ 0)) ra
      refine ⟨_, rfl, hs.st, ?_, ?_⟩
      · exact (applyFixed_ids ..).1
      · exact (applyFixed_ids ..).2

/-- **C191** (partial): it holds for T3302 and the MBMS context status. -/
theorem c191_partial (cfg : GmmCfg) (ok : GmmOut → Bool) (g : Gmme) (b : Octets) (r : GmmStep) (tag : UInt8) (v : Octets)
    (hb : IsAccept b) (hr : gmmStep cfg ok g (.rx b) = .ok r) (hrc : r.rc = none) (ht : tag = 0x2a ∨ tag = 0x35)
    (hv : v.length < 256) : gmmStep cfg ok g (.rx (b ++ tlvElement tag v)) = .ok r :=
  (accept_tlv hb hr hrc hv).1 (by rcases ht with rfl | rfl <;> decide)

/-- With any of the other elements the message is refused: the mobile station does not answer, stays in the state it
is in and keeps TLLI and P-TMSI. -/
theorem c191_refused (cfg : GmmCfg) (ok : GmmOut → Bool) (g : Gmme) (b : Octets) (r : GmmStep) (tag : UInt8) (v : Octets)
    (hb : IsAccept b) (hr : gmmStep cfg ok g (.rx b) = .ok r) (hrc : r.rc = none) (ht : tag ∈ otherTags)
    (h1 : tag ≠ 0x2a) (h2 : tag ≠ 0x35) (hv : v.length < 256) :
    ∃ g', gmmStep cfg ok g (.rx (b ++ tlvElement tag v)) = .ok ⟨g', [], some .einval⟩ ∧
      g'.st = g.st ∧ g'.tlli = g.tlli ∧ g'.ptmsi = g.ptmsi :=
  (accept_tlv hb hr hrc hv).2 ht (by simp [knownTags, h1, h2])

/-- GMM INFORMATION that begins with the name of the network (full or short) is always refused. -/
theorem c191_names (cfg : GmmCfg) (ok : GmmOut → Bool) (g : Gmme) (tag : UInt8) (m : Octets) (ht : tag = 0x43 ∨ tag = 0x45) :
    gmmStep cfg ok g (.rx (0x08 :: 0x21 :: tag :: m)) = .ok ⟨g, [], some .einval⟩ := by
  have e1 : gmmStep cfg ok g (.rx (0x08 :: 0x21 :: tag :: m)) = rxInfo g (0x08 :: 0x21 :: tag :: m) := rfl
  have h1 : rd (0x08 :: 0x21 :: tag :: m) 2 = .ok tag.toNat := rfl
  have h2 : ieParseOne gmmIes (0x08 :: 0x21 :: tag :: m) 2 = .err .einval := by
    unfold ieParseOne
    rw [h1]
    simp only [Res.bind_ok]
    rcases ht with rfl | rfl <;> rfl
  have hl : (0x08 :: 0x21 :: tag :: m : Octets).length = m.length + 2 + 1 := rfl
  rw [e1]
  unfold rxInfo ieParse
  rw [if_neg (by omega), hl]
  unfold ieParseFrom
  rw [if_neg (by omega), h2]
  rfl

/-! ## The refutation -/

/-- A mobile station has asked to be attached. -/
def attaching : List GmmIn := [⟨.attachReq ⟨1, false, 1, [], [], [0x62, 0xf2, 0x20, 0, 1, 0]⟩, fun _ => true⟩]

/-- ATTACH ACCEPT with a new P-TMSI. -/
def plainAccept : Octets := [0x08, 0x02, 1, 0x4a, 4, 0x62, 0xf2, 0x20, 0, 1, 0, 0x18, 5, 0xf4, 0xc0, 0, 0, 5]

def runEnd (r : Res (Gmme × List GmmObs)) : Gmme × List GmmObs :=
  match r with
  | .ok x => x
  | _ => (gmmeAlloc true 0 [] 0, [])

def runOk (r : Res (Gmme × List GmmObs)) : Bool :=
  match r with
  | .ok _ => true
  | _ => false

theorem runEnd_ok {r : Res (Gmme × List GmmObs)} (h : runOk r = true) : r = .ok (runEnd r) := by
  cases r with
  | ok x => rfl
  | err e => cases h
  | ub f => cases h

/-- **C191 is violated**: with the list of equivalent PLMNs the mobile station does not attach. -/
theorem c191_violated : ¬ C191Statement := by
  intro h
  have hr := runEnd_ok (r := gmmRun defaultCfg (gmmeAlloc true 0xc0000001 [0, 0, 1, 0, 1] 7) attaching) (by decide +kernel)
  generalize hx : runEnd (gmmRun defaultCfg (gmmeAlloc true 0xc0000001 [0, 0, 1, 0, 1] 7) attaching) = x at hr
  have ha : IsAccept plainAccept := Or.inl ⟨_, rfl, by decide⟩
  have hok : (match gmmStep defaultCfg (fun _ => true) x.1 (.rx plainAccept) with
      | .ok r => r.rc.isNone
      | _ => false) = true := by
    rw [← hx]; decide +kernel
  cases hs : gmmStep defaultCfg (fun _ => true) x.1 (.rx plainAccept) with
  | ok r =>
    rw [hs] at hok
    have hrc := Option.isNone_iff_eq_none.1 hok
    have h1 := h defaultCfg (fun _ => true) x.1 x.2 plainAccept r 0x4a [0x62, 0xf2, 0x30] ⟨_, _, _, _, _, hr⟩ ha hs hrc
      (by decide) (by decide)
    obtain ⟨g', h2, -⟩ := c191_refused defaultCfg (fun _ => true) x.1 plainAccept r 0x4a [0x62, 0xf2, 0x30] ha hs hrc
      (by decide) (by decide) (by decide) (by decide)
    rw [h2] at h1
    injection h1 with h1
    rw [← h1] at hrc
    cases hrc
  | err e => rw [hs] at hok; cases hok
  | ub f => rw [hs] at hok; cases hok

/-- The message that `c191_partial` and `c191_refused` start from is accepted, and registers the mobile station. -/
example : (match gmmStep defaultCfg (fun _ => true)
      (runEnd (gmmRun defaultCfg (gmmeAlloc true 0xc0000001 [0, 0, 1, 0, 1] 7) attaching)).1 (.rx plainAccept) with
    | .ok r => r.rc.isNone && r.g.st == .reg
    | _ => false) = true := by decide +kernel

end Verif.Props
