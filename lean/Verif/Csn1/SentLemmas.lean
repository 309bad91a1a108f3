import Verif.Csn1.LayMsg
import Verif.Csn1.Sent
import Verif.Spec.CsnSent

/-!
# Layout of the messages the station sends
-/
namespace Verif.Csn1

open Spec

/-- The first parts of every message. -/
def headItems : List Item := [.fld 1 1 2 0, .fld 2 1 5 0, .fld 3 1 1 0, .fld 0 1 6 0]

theorem ulDummy_parts (t : Nat) : ulParts (ulDummy t) = some (headItems ++ [.fld 4 4 32 0]) := rfl

theorem ctrlAck_parts (t : Nat) :
    ulParts (ctrlAck t) = some (headItems ++ [.fld 4 4 32 0, .fld 8 1 2 0, .fld 12 1 1 0]) := rfl

/-- Flags of absent elements and zero fields: octets from the addresses on, with these numbers of bits. -/
def zeros (l : List (Nat × Nat)) : List Item := l.map fun p => .fld p.1 1 p.2 0

/-- The members of a zero MS RA capability. -/
def raItems : List (Nat × Nat) :=
  [(19, 3), (20, 1), (22, 1), (23, 1), (24, 1), (25, 1), (26, 1), (45, 1), (47, 1), (48, 1), (49, 1), (50, 1), (51, 1),
   (52, 1), (53, 1), (54, 1), (57, 1), (58, 1), (60, 1), (62, 2), (63, 2), (64, 1), (65, 2), (66, 1), (67, 1), (68, 1),
   (72, 1), (73, 1), (74, 1), (77, 1), (78, 1), (79, 1), (80, 1), (81, 2), (82, 2), (83, 1), (84, 1), (85, 2), (86, 1)]

/-- The parts of a PACKET RESOURCE REQUEST. -/
def requestItems : List Item := headItems ++
    [.fld 4 1 1 0, .fld 5 1 2 0, .con 1 1, .implied 8 1, .fld 12 4 32 0, .fld 16 1 1 0, .con 4 0, .implied 18 0,
     .con 7 47] ++ zeros raItems ++ [.con 1 0, .implied 17 1, .fld 778 1 4 0, .fld 779 1 2 0, .fld 780 1 1 0,
     .fld 781 1 1 0, .fld 782 2 16 0] ++ zeros [(784, 1), (786, 6), (787, 1), (792, 1), (800, 1), (808, 1), (816, 1),
     (824, 1), (832, 1), (840, 1), (848, 1), (856, 1)]

theorem content_parts (m : Mem) (h20 : m 20 % 256 = 0) (h26 : m 26 % 256 = 0) (h45 : m 45 % 256 = 0) (h54 : m 54 % 256 = 0) (h58 : m 58 % 256 = 0) (h60 : m 60 % 256 = 0) (h68 : m 68 % 256 = 0) (h74 : m 74 % 256 = 0) :
    layL m 19 t_Content {} [] = some (zeros raItems) := by
  simp [layL, layD, uintW, t_Content, zeros, raItems, h20, h26, h45, h54, h58, h60, h68, h74]

theorem ra_parts (m : Mem) (h17 : m 17 % 256 = 1) (h18 : m 18 % 256 = 0)
    (hc : layL m 19 t_Content {} [] = some (zeros raItems)) (acc : List Item) :
    layL m 17 t_MS_Radio_Access_capability2 {} acc =
      some (acc ++ (.con 4 0 :: .implied 18 0 :: .con 7 47 :: zeros raItems ++ [.con 1 0, .implied 17 1])) := by
  have hz : size (zeros raItems) = 47 := rfl
  have hs : ∀ acc, layD m false 18 (.serialize 1 7 t_Content) acc = some (acc ++ .con 7 47 :: zeros raItems) := by
    intro acc
    unfold layD
    rw [if_neg (by simp), hc]
    rw [Option.bind_some, hz, if_pos (by decide)]
  have hv : ∀ acc, layL m 18 t_MS_RA_capability_value {} acc =
      some (acc ++ (.con 4 0 :: .implied 18 0 :: .con 7 47 :: zeros raItems)) := by
    intro acc
    have : layD m false 18 (.choice 0 1 s_MS_RA_capability_value_Choice c_MS_RA_capability_value_Choice) acc =
        some (acc ++ (.con 4 0 :: .implied 18 0 :: .con 7 47 :: zeros raItems)) := by
      unfold layD
      rw [if_neg (by simp), Nat.add_zero, h18]
      unfold layC s_MS_RA_capability_value_Choice c_MS_RA_capability_value_Choice
      dsimp only
      rw [if_pos rfl, Nat.add_zero, h18, hs]
      simp
    unfold t_MS_RA_capability_value layL
    rw [if_neg (by simp)]
    dsimp only
    rw [this]
    simp [layL]
  unfold t_MS_Radio_Access_capability2 layL
  rw [if_neg (by simp)]
  dsimp only
  have : layD m false 17 (.recTArr1 1 759 69 11 0 t_MS_RA_capability_value) acc =
      some (acc ++ (.con 4 0 :: .implied 18 0 :: .con 7 47 :: zeros raItems ++ [.con 1 0, .implied 17 1])) := by
    unfold layD
    dsimp only
    rw [Nat.add_zero, h17]
    simp [layIter, hv]
  rw [this]
  simp [layL]

theorem request_parts (m : Mem) (h0 : m 0 % 256 = 5) (h4 : m 4 % 256 = 1) (h8 : m 8 % 256 = 1) (h16 : m 16 % 256 = 1)
    (hr : ∀ acc, layL m 17 t_MS_Radio_Access_capability2 {} acc =
      some (acc ++ (.con 4 0 :: .implied 18 0 :: .con 7 47 :: zeros raItems ++ [.con 1 0, .implied 17 1])))
    (h784 : m 784 % 256 = 0) (h787 : m 787 % 256 = 0) (h792 : m 792 % 256 = 0) (h800 : m 800 % 256 = 0) (h808 : m 808 % 256 = 0) (h816 : m 816 % 256 = 0) (h824 : m 824 % 256 = 0) (h832 : m 832 % 256 = 0) (h840 : m 840 % 256 = 0) (h848 : m 848 % 256 = 0) (h856 : m 856 % 256 = 0) :
    ulParts m = some requestItems := by
  unfold ulParts
  rw [h0]
  show (some t_Packet_Resource_Request).bind _ = _
  simp [layL, layD, layC, layIter, uintW, t_Packet_Resource_Request, t_PacketResourceRequestID,
    s_PacketResourceRequestID, c_PacketResourceRequestID, t_Channel_Request_Description, apart, hr,
    t_InterferenceMeasurementReport, h4, h8, h16, h784, h787, h792, h800, h808, h816, h824, h832, h840, h848, h856]
  rfl

theorem resourceReq_parts (t n : Nat) : ulParts (resourceReq t n) = some requestItems :=
  request_parts _ rfl rfl rfl rfl
    (ra_parts _ rfl rfl (content_parts _ rfl rfl rfl rfl rfl rfl rfl rfl)) rfl rfl rfl rfl rfl rfl rfl rfl rfl rfl rfl

/-- The parts of a report: with a channel request, or without. -/
def reportItems (req : Bool) : List Item := headItems ++
    [.fld 4 1 5 0, .fld 5 1 1 0, .fld 6 1 7 0, .fld 7 1 8 0, .fld 8 1 8 0, .fld 9 1 8 0, .fld 10 1 8 0, .fld 11 1 8 0,
     .fld 12 1 8 0, .fld 13 1 8 0, .fld 14 1 8 0, .fld 15 1 1 0] ++
    (if req then [.fld 16 1 4 0, .fld 17 1 2 0, .fld 18 1 1 0, .fld 19 1 1 0, .fld 20 2 16 0] else []) ++
    zeros [(22, 6), (23, 3), (24, 6), (25, 1), (27, 1), (29, 1), (31, 1), (33, 1), (35, 1), (37, 1), (39, 1), (44, 1)]

theorem dlAckNack_parts (tfi : Nat) (f : Bool) (d : Rlc.AckDesc) :
    ulParts (dlAckNack tfi f d none) = some (reportItems false) := rfl

theorem dlAckNack_parts_req (tfi : Nat) (f : Bool) (d : Rlc.AckDesc) (p n : Nat) :
    ulParts (dlAckNack tfi f d (some (p, n))) = some (reportItems true) := rfl

/-! ## Values -/

theorem getLe_four {m : Mem} {a x : Nat} (h0 : m a = x % 256) (h1 : m (a + 1) = x / 256 % 256)
    (h2 : m (a + 2) = x / 256 / 256 % 256) (h3 : m (a + 3) = x / 256 / 256 / 256 % 256) (hx : x < 2 ^ 32) :
    getLe m a 4 = x := by
  unfold getLe getLe getLe getLe getLe
  rw [h0, h1, show a + 1 + 1 = a + 2 from rfl, h2, show a + 2 + 1 = a + 3 from rfl, h3]
  omega

theorem getLe_two {m : Mem} {a x : Nat} (h0 : m a = x % 256) (h1 : m (a + 1) = x / 256 % 256) (hx : x < 2 ^ 16) :
    getLe m a 2 = x := by
  unfold getLe getLe getLe
  rw [h0, h1]
  omega

theorem fits_zero {m : Mem} {a bits x : Nat} (h : m a % 256 = x) (hx : x < 2 ^ bits) : (Item.fld a 1 bits 0).Fits m := by
  refine ⟨Nat.zero_le _, ?_⟩
  rw [getLe_one, h]
  omega

theorem fits_val {m : Mem} {a w bits x : Nat} (h : getLe m a w = x) (hx : x < 2 ^ bits) : (Item.fld a w bits 0).Fits m := by
  refine ⟨Nat.zero_le _, ?_⟩
  rw [h]
  omega

theorem zeros_fits {m : Mem} {l : List (Nat × Nat)} (h : ∀ p ∈ l, m p.1 % 256 = 0) : ∀ i ∈ zeros l, i.Fits m := by
  intro i hi
  obtain ⟨p, hp, rfl⟩ := List.mem_map.mp hi
  exact fits_zero (h p hp) (Nat.two_pow_pos _)

theorem natBits_zero (n : Nat) : natBits n 0 = List.replicate n false := by
  induction n with
  | zero => rfl
  | succ n ih => unfold natBits; rw [ih, Nat.zero_testBit, List.replicate_succ]

theorem zeros_code {m : Mem} : ∀ {l : List (Nat × Nat)}, (∀ p ∈ l, m p.1 % 256 = 0) →
    code m (zeros l) = List.replicate (l.map Prod.snd).sum false := by
  intro l
  induction l with
  | nil => intro _; rfl
  | cons p l ih =>
    intro h
    show code m (.fld p.1 1 p.2 0 :: zeros l) = _
    rw [code_cons, ih (fun q hq => h q (List.mem_cons_of_mem _ hq)), List.map_cons, List.sum_cons,
      ← List.replicate_append_replicate]
    unfold Item.code
    dsimp only
    rw [getLe_one, h p List.mem_cons_self, Nat.sub_zero, natBits_zero]

theorem head_fits {m : Mem} {mt : Nat} (h0 : m 0 % 256 = mt) (h1 : m 1 % 256 = 1) (h2 : m 2 % 256 = 0)
    (h3 : m 3 % 256 = 0) (hm : mt < 64) : ∀ i ∈ headItems, i.Fits m := by
  unfold headItems
  simp only [List.forall_mem_cons]
  exact ⟨fits_zero h1 (by decide), fits_zero h2 (by decide), fits_zero h3 (by decide), fits_zero h0 (by omega),
    fun _ h => nomatch h⟩

theorem fld_code {m : Mem} {a w bits x : Nat} {l : List Item} (h : getLe m a w = x) :
    code m (.fld a w bits 0 :: l) = natBits bits x ++ code m l := by
  rw [code_cons]
  unfold Item.code
  dsimp only
  rw [h, Nat.sub_zero]

theorem con_code {m : Mem} {bits x : Nat} {l : List Item} : code m (.con bits x :: l) = natBits bits x ++ code m l := rfl

theorem implied_code {m : Mem} {a x : Nat} {l : List Item} : code m (.implied a x :: l) = code m l := rfl

theorem head_code {m : Mem} {mt : Nat} (h0 : getLe m 0 1 = mt) (h1 : getLe m 1 1 = 1) (h2 : getLe m 2 1 = 0)
    (h3 : getLe m 3 1 = 0) (l : List Item) : code m (headItems ++ l) = msgHead mt ++ code m l := by
  rw [code_append]
  unfold headItems msgHead
  rw [fld_code h1, fld_code h2, fld_code h3, fld_code h0, code_nil]
  simp

/-- What is needed to encode a message: its layout, values in range, its bits. -/
theorem encode_bits {m : Mem} {l : List Item} {b : List Bool} (h : ulParts m = some l) (hf : ∀ i ∈ l, i.Fits m)
    (hc : code m l = b) (hb : b.length ≤ 184) (hk : skew l = 0) :
    ∃ s, encodeUplink m = .ok s ∧ s.bits 184 = padded b := by
  obtain ⟨s, h1, _, h3⟩ := encode_parts h hf (by rw [← code_length m, hc]; exact hb)
  exact ⟨s, h1, by rw [h3 hk, hc]⟩

theorem forall_mem_append {p : Item → Prop} {a b : List Item} (ha : ∀ i ∈ a, p i) (hb : ∀ i ∈ b, p i) :
    ∀ i ∈ a ++ b, p i := fun i hi => (List.mem_append.mp hi).elim (ha i) (hb i)

theorem ulDummy_bits {t : Nat} (ht : t < 2 ^ 32) :
    ∃ s, encodeUplink (ulDummy t) = .ok s ∧ s.bits 184 = padded (ulDummyBits t) := by
  have h4 : getLe (ulDummy t) 4 4 = t := getLe_four rfl rfl rfl rfl ht
  refine encode_bits (ulDummy_parts t) (forall_mem_append (head_fits (mt := 3) rfl rfl rfl rfl (by decide)) ?_) ?_ ?_ rfl
  · simp only [List.forall_mem_cons]
    exact ⟨fits_val h4 ht, fun _ h => nomatch h⟩
  · rw [head_code rfl rfl rfl rfl, fld_code h4, code_nil, List.append_nil]; rfl
  · simp [ulDummyBits, msgHead, natBits_length]

theorem ctrlAck_bits {t : Nat} (ht : t < 2 ^ 32) :
    ∃ s, encodeUplink (ctrlAck t) = .ok s ∧ s.bits 184 = padded (ctrlAckBits t) := by
  have h4 : getLe (ctrlAck t) 4 4 = t := getLe_four rfl rfl rfl rfl ht
  refine encode_bits (ctrlAck_parts t) (forall_mem_append (head_fits (mt := 1) rfl rfl rfl rfl (by decide)) ?_) ?_ ?_ rfl
  · simp only [List.forall_mem_cons]
    exact ⟨fits_val h4 ht, fits_zero (x := 0) rfl (by decide), fits_zero (x := 0) rfl (by decide), fun _ h => nomatch h⟩
  · rw [head_code rfl rfl rfl rfl, fld_code h4, fld_code (x := 0) rfl, fld_code (x := 0) rfl, code_nil]
    unfold ctrlAckBits
    simp only [List.append_assoc, List.append_nil]
    rfl
  · simp [ctrlAckBits, msgHead, natBits_length]

theorem natBits_bool (b : Bool) : natBits 1 (if b then 1 else 0) = [b] := by cases b <;> rfl

theorem getLe_byte {m : Mem} {a x : Nat} (h : m a = x % 256) (hx : x < 256) : getLe m a 1 = x := by
  rw [getLe_one, h]; omega

theorem resourceReq_bits {t n : Nat} (ht : t < 2 ^ 32) (hn : n < 2 ^ 16) :
    ∃ s, encodeUplink (resourceReq t n) = .ok s ∧ s.bits 184 = padded (resourceReqBits t n) := by
  have h12 : getLe (resourceReq t n) 12 4 = t := getLe_four rfl rfl rfl rfl ht
  have h782 : getLe (resourceReq t n) 782 2 = n := getLe_two rfl rfl hn
  have hz1 : ∀ p ∈ raItems, resourceReq t n p.1 % 256 = 0 := by
    unfold raItems
    simp only [List.forall_mem_cons]
    repeat' apply And.intro
    all_goals first | rfl | (intro _ h; exact nomatch h)
  have hz2 : ∀ p ∈ [(784, 1), (786, 6), (787, 1), (792, 1), (800, 1), (808, 1), (816, 1),
     (824, 1), (832, 1), (840, 1), (848, 1), (856, 1)], resourceReq t n p.1 % 256 = 0 := by
    simp only [List.forall_mem_cons]
    repeat' apply And.intro
    all_goals first | rfl | (intro _ h; exact nomatch h)
  refine encode_bits (resourceReq_parts t n) ?_ ?_ ?_ rfl
  · unfold requestItems
    refine forall_mem_append (forall_mem_append (forall_mem_append (forall_mem_append
      (head_fits (mt := 5) rfl rfl rfl rfl (by decide)) ?_) (zeros_fits hz1)) ?_) (zeros_fits hz2)
    · simp only [List.forall_mem_cons]
      exact ⟨fits_zero (x := 1) rfl (by decide), fits_zero (x := 0) rfl (by decide), (by decide : 1 < 2 ^ 1), rfl,
        fits_val h12 ht, fits_zero (x := 1) rfl (by decide), (by decide : 0 < 2 ^ 4), rfl, (by decide : 47 < 2 ^ 7),
        fun _ h => nomatch h⟩
    · simp only [List.forall_mem_cons]
      exact ⟨(by decide : 0 < 2 ^ 1), rfl, fits_zero (x := 1) rfl (by decide), fits_zero (x := 3) rfl (by decide),
        fits_zero (x := 0) rfl (by decide), fits_zero (x := 0) rfl (by decide), fits_val h782 hn, fun _ h => nomatch h⟩
  · unfold requestItems
    simp only [List.append_assoc]
    rw [head_code rfl rfl rfl rfl]
    simp only [code_append]
    rw [zeros_code hz1, zeros_code hz2]
    rw [fld_code (x := 1) rfl, fld_code (x := 0) rfl, con_code, implied_code, fld_code h12, fld_code (x := 1) rfl,
      con_code, implied_code, con_code, code_nil, con_code, implied_code, fld_code (x := 1) rfl, fld_code (x := 3) rfl,
      fld_code (x := 0) rfl, fld_code (x := 0) rfl, fld_code h782, code_nil]
    unfold resourceReqBits chanReqBits
    simp only [List.append_assoc, List.append_nil]
    rfl
  · simp [resourceReqBits, chanReqBits, msgHead, natBits_length]

/-- The bits of octets. -/
def octBits (l : Octets) : List Bool := l.flatMap fun o => natBits 8 o.toNat

theorem dlAckNack_bits {tfi : Nat} {final : Bool} {d : Rlc.AckDesc} {req : Option (Nat × Nat)} (ht : tfi < 32)
    (hs : d.ssn < 128) (hl : d.rbb.length = 8) (hq : ∀ p ∈ req, p.1 < 4 ∧ p.2 < 2 ^ 16) :
    ∃ s, encodeUplink (dlAckNack tfi final d req) = .ok s ∧
      s.bits 184 = padded (dlAckBits tfi final d.ssn (octBits d.rbb) req) := by
  obtain ⟨ssn, rbb⟩ := d
  match rbb, hl with
  | [a, b, c, d, e, f, g, h], _ =>
    have hs : ssn < 128 := hs
    have hfin : (if final then 1 else 0) < 2 := by cases final <;> decide
    have ua := a.toNat_lt; have ub := b.toNat_lt; have uc := c.toNat_lt; have ud := d.toNat_lt
    have ue := e.toNat_lt; have uf := f.toNat_lt; have ug := g.toNat_lt; have uh := h.toNat_lt
    match req, hq with
    | none, _ =>
      generalize hm : dlAckNack tfi final ⟨ssn, [a, b, c, d, e, f, g, h]⟩ none = m
      have h4 : getLe m 4 1 = tfi := by subst hm; exact getLe_byte rfl (by omega)
      have h5 : getLe m 5 1 = if final then 1 else 0 := by subst hm; exact getLe_byte rfl (by omega)
      have h6 : getLe m 6 1 = ssn := by subst hm; exact getLe_byte rfl (by omega)
      have h7 : getLe m 7 1 = a.toNat := by subst hm; rw [getLe_one]; exact Nat.mod_eq_of_lt ua
      have h8 : getLe m 8 1 = b.toNat := by subst hm; rw [getLe_one]; exact Nat.mod_eq_of_lt ub
      have h9 : getLe m 9 1 = c.toNat := by subst hm; rw [getLe_one]; exact Nat.mod_eq_of_lt uc
      have h10 : getLe m 10 1 = d.toNat := by subst hm; rw [getLe_one]; exact Nat.mod_eq_of_lt ud
      have h11 : getLe m 11 1 = e.toNat := by subst hm; rw [getLe_one]; exact Nat.mod_eq_of_lt ue
      have h12 : getLe m 12 1 = f.toNat := by subst hm; rw [getLe_one]; exact Nat.mod_eq_of_lt uf
      have h13 : getLe m 13 1 = g.toNat := by subst hm; rw [getLe_one]; exact Nat.mod_eq_of_lt ug
      have h14 : getLe m 14 1 = h.toNat := by subst hm; rw [getLe_one]; exact Nat.mod_eq_of_lt uh
      have h15 : getLe m 15 1 = 0 := by subst hm; rfl
      have hz : ∀ p ∈ [(22, 6), (23, 3), (24, 6), (25, 1), (27, 1), (29, 1), (31, 1), (33, 1), (35, 1), (37, 1),
          (39, 1), (44, 1)], m p.1 % 256 = 0 := by
        subst hm
        simp only [List.forall_mem_cons]
        repeat' apply And.intro
        all_goals first | rfl | (intro _ h; exact nomatch h)
      refine encode_bits (l := reportItems false) (by subst hm; exact dlAckNack_parts _ _ _) ?_ ?_ ?_ rfl
      · unfold reportItems
        refine forall_mem_append (forall_mem_append (forall_mem_append
          (head_fits (mt := 2) (by subst hm; rfl) (by subst hm; rfl) (by subst hm; rfl) (by subst hm; rfl) (by decide)) ?_) ?_)
          (zeros_fits hz)
        · simp only [List.forall_mem_cons]
          exact ⟨fits_val h4 ht, fits_val h5 hfin, fits_val h6 hs, fits_val h7 ua, fits_val h8 ub, fits_val h9 uc,
            fits_val h10 ud, fits_val h11 ue, fits_val h12 uf, fits_val h13 ug, fits_val h14 uh, fits_val h15 (by decide),
            fun _ h => nomatch h⟩
        · exact fun _ h => nomatch h
      · unfold reportItems
        simp only [List.append_assoc]
        rw [head_code (mt := 2) (by subst hm; rfl) (by subst hm; rfl) (by subst hm; rfl) (by subst hm; rfl)]
        simp only [code_append]
        rw [zeros_code hz]
        rw [fld_code h4, fld_code h5, fld_code h6, fld_code h7, fld_code h8, fld_code h9, fld_code h10, fld_code h11,
          fld_code h12, fld_code h13, fld_code h14, fld_code h15, code_nil, natBits_bool]
        unfold dlAckBits octBits
        simp only [List.append_assoc, List.append_nil, List.flatMap_cons, List.flatMap_nil]
        rfl
      · simp [dlAckBits, octBits, msgHead, natBits_length]
    | some (p, n), hq =>
      have hp : p < 4 := (hq (p, n) rfl).1
      have hn : n < 2 ^ 16 := (hq (p, n) rfl).2
      generalize hm : dlAckNack tfi final ⟨ssn, [a, b, c, d, e, f, g, h]⟩ (some (p, n)) = m
      have h4 : getLe m 4 1 = tfi := by subst hm; exact getLe_byte rfl (by omega)
      have h5 : getLe m 5 1 = if final then 1 else 0 := by subst hm; exact getLe_byte rfl (by omega)
      have h6 : getLe m 6 1 = ssn := by subst hm; exact getLe_byte rfl (by omega)
      have h7 : getLe m 7 1 = a.toNat := by subst hm; rw [getLe_one]; exact Nat.mod_eq_of_lt ua
      have h8 : getLe m 8 1 = b.toNat := by subst hm; rw [getLe_one]; exact Nat.mod_eq_of_lt ub
      have h9 : getLe m 9 1 = c.toNat := by subst hm; rw [getLe_one]; exact Nat.mod_eq_of_lt uc
      have h10 : getLe m 10 1 = d.toNat := by subst hm; rw [getLe_one]; exact Nat.mod_eq_of_lt ud
      have h11 : getLe m 11 1 = e.toNat := by subst hm; rw [getLe_one]; exact Nat.mod_eq_of_lt ue
      have h12 : getLe m 12 1 = f.toNat := by subst hm; rw [getLe_one]; exact Nat.mod_eq_of_lt uf
      have h13 : getLe m 13 1 = g.toNat := by subst hm; rw [getLe_one]; exact Nat.mod_eq_of_lt ug
      have h14 : getLe m 14 1 = h.toNat := by subst hm; rw [getLe_one]; exact Nat.mod_eq_of_lt uh
      have h15 : getLe m 15 1 = 1 := by subst hm; rfl
      have h16 : getLe m 16 1 = 0 := by subst hm; rfl
      have h17 : getLe m 17 1 = p := by subst hm; exact getLe_byte rfl (by omega)
      have h18 : getLe m 18 1 = 0 := by subst hm; rfl
      have h19 : getLe m 19 1 = 0 := by subst hm; rfl
      have h20 : getLe m 20 2 = n := by subst hm; exact getLe_two rfl rfl hn
      have hz : ∀ p ∈ [(22, 6), (23, 3), (24, 6), (25, 1), (27, 1), (29, 1), (31, 1), (33, 1), (35, 1), (37, 1),
          (39, 1), (44, 1)], m p.1 % 256 = 0 := by
        subst hm
        simp only [List.forall_mem_cons]
        repeat' apply And.intro
        all_goals first | rfl | (intro _ h; exact nomatch h)
      refine encode_bits (l := reportItems true) (by subst hm; exact dlAckNack_parts_req _ _ _ _ _) ?_ ?_ ?_ rfl
      · unfold reportItems
        refine forall_mem_append (forall_mem_append (forall_mem_append
          (head_fits (mt := 2) (by subst hm; rfl) (by subst hm; rfl) (by subst hm; rfl) (by subst hm; rfl) (by decide)) ?_) ?_)
          (zeros_fits hz)
        · simp only [List.forall_mem_cons]
          exact ⟨fits_val h4 ht, fits_val h5 hfin, fits_val h6 hs, fits_val h7 ua, fits_val h8 ub, fits_val h9 uc,
            fits_val h10 ud, fits_val h11 ue, fits_val h12 uf, fits_val h13 ug, fits_val h14 uh, fits_val h15 (by decide),
            fun _ h => nomatch h⟩
        · rw [if_pos rfl]
          simp only [List.forall_mem_cons]
          exact ⟨fits_val h16 (by decide), fits_val h17 hp, fits_val h18 (by decide), fits_val h19 (by decide),
            fits_val h20 hn, fun _ h => nomatch h⟩
      · unfold reportItems
        rw [if_pos rfl]
        simp only [List.append_assoc]
        rw [head_code (mt := 2) (by subst hm; rfl) (by subst hm; rfl) (by subst hm; rfl) (by subst hm; rfl)]
        simp only [code_append]
        rw [zeros_code hz]
        rw [fld_code h4, fld_code h5, fld_code h6, fld_code h7, fld_code h8, fld_code h9, fld_code h10, fld_code h11,
          fld_code h12, fld_code h13, fld_code h14, fld_code h15, code_nil, natBits_bool, fld_code h16, fld_code h17,
          fld_code h18, fld_code h19, fld_code h20, code_nil]
        unfold dlAckBits octBits chanReqBits
        simp only [List.append_assoc, List.append_nil, List.flatMap_cons, List.flatMap_nil]
        rfl
      · simp [dlAckBits, octBits, msgHead, chanReqBits, natBits_length]

theorem natBits_at : ∀ (n x k : Nat), k < n → (natBits n x)[k]? = some (x.testBit (n - 1 - k)) := by
  intro n x k h
  have hl : k < (natBits n x).length := by rw [natBits_length]; exact h
  have := List.getElem?_eq_getElem hl
  rw [this, (natBits_get n x k _ this).2]

theorem octBits_at : ∀ (l : Octets) (i : Nat), i < 8 * l.length → (octBits l)[i]? = some (Verif.bitAt l i) := by
  intro l
  induction l with
  | nil => intro i h; exact absurd h (by simp)
  | cons x l ih =>
    intro i h
    rw [List.length_cons] at h
    show (natBits 8 x.toNat ++ octBits l)[i]? = _
    by_cases hi : i < 8
    · rw [List.getElem?_append_left (by rw [natBits_length]; exact hi), natBits_at 8 _ i hi]
      unfold Verif.bitAt
      rw [show i / 8 = 0 by omega, List.getElem?_cons_zero]
      dsimp only
      rw [Nat.testBit_eq_decide_div_mod_eq, show i % 8 = i by omega]
      congr 1
    · rw [List.getElem?_append_right (by rw [natBits_length]; omega), natBits_length, ih (i - 8) (by omega)]
      unfold Verif.bitAt
      rw [show i / 8 = (i - 8) / 8 + 1 by omega, List.getElem?_cons_succ, show (i - 8) % 8 = i % 8 by omega]

end Verif.Csn1
