import Verif.Csn1.RecvMsgs
import Verif.Csn1.LayTop

/-!
# What the handlers read from a message
-/
namespace Verif.Csn1

open Spec

/-- A table with these bits, decoded into zeroed memory. -/
theorem recv_dl {v : List Bool} {m : Mem} {mt st : Nat} {t : List Csn} {B : List Bool} {C : List Nat} (htab : dlTable mt = some t)
    (hl : Lay m 0 t.dropLast B C) (hst : dlStart v = some st) (hs : st + B.length ≤ 184) (ht : bitsVal v st 6 = mt)
    (hr : Contains v st B) (hC : ∀ a ∈ C, a < dlUnion) (h0 : m 0 = mt) :
    ∃ s, decodeDownlink .member v (fun _ => 0) = .ok s ∧ (∀ a ∈ C, s.mem a % 256 = m a % 256) ∧
      memPoll s.mem = if fieldAt v 4 1 = 1 then some (fieldAt v 2 2) else none := by
  obtain ⟨l, h1, h2, h3, h4⟩ := hl
  have hp : dlParts mt m = some l := by
    unfold dlParts
    rw [htab, Option.bind_some]
    have := h1 [] []
    rw [List.append_nil, List.nil_append] at this
    rw [this, layL_done]
  obtain ⟨s, g1, g2, g3, g4, g5, g6⟩ := decode_dl_hdr (m0 := fun _ => 0) hst hp h2 (by rw [← code_length m, h3]; exact hs) ht
    (by rw [h3]; exact contains_reads.mp hr)
  refine ⟨s, g1, fun a ha => ?_, ?_⟩
  · cases hc : carried l a
    · rcases h4 a ha with h | h
      · rw [hc] at h; cases h
      · by_cases hz : a = 0
        · subst hz
          rw [g4 hc, h0]
        · rw [g3 a hc hz (hC a ha), h]
    · rw [g2 a hc, Nat.mod_mod]
  · unfold memPoll
    rw [g5, g6, fieldAt_eq, fieldAt_eq]
    have := bitsVal_lt v 1 4
    by_cases h : bitsVal v 4 1 = 1
    · rw [if_pos (by omega), if_pos h]
    · rw [if_neg (by omega), if_neg h]

theorem getLe_mod4 {m : Mem} {a x : Nat} (h : ∀ k, k < 4 → m (a + k) % 256 = lo x k % 256) (hx : x < 2 ^ 32) : getLe m a 4 = x := by
  have h0 : m a % 256 = _ := h 0 (by decide)
  have h1 := h 1 (by decide)
  have h2 := h 2 (by decide)
  have h3 := h 3 (by decide)
  simp only [lo, Nat.mod_mod, Nat.pow_zero, Nat.div_one] at h0 h1 h2 h3
  unfold getLe getLe getLe getLe getLe
  rw [h0, h1, show a + 1 + 1 = a + 2 from rfl, h2, show a + 2 + 1 = a + 3 from rfl, h3]
  omega

theorem getLe_mod2 {m : Mem} {a x : Nat} (h : ∀ k, k < 2 → m (a + k) % 256 = lo x k % 256) (hx : x < 2 ^ 16) : getLe m a 2 = x := by
  have h0 : m a % 256 = _ := h 0 (by decide)
  have h1 := h 1 (by decide)
  simp only [lo, Nat.mod_mod, Nat.pow_zero, Nat.div_one] at h0 h1
  unfold getLe getLe getLe
  rw [h0, h1]
  omega

theorem memId_eq {m : Mem} {a : Nat} {st : Station} (h0 : m a % 256 = idmem st 0 % 256) (h4 : m (a + 4) % 256 = idmem st 4 % 256)
    (h5 : m (a + 5) % 256 = idmem st 5 % 256) (h6 : m (a + 6) % 256 = idmem st 6 % 256) (h7 : m (a + 7) % 256 = idmem st 7 % 256)
    (ok : st.Ok) : memId m a = st.msId := by
  unfold memId
  cases st with
  | ul t =>
    have ok : t < 32 := ok
    have h0 : m a % 256 = 0 := h0
    have h4 : m (a + 4) % 256 = 0 := h4
    rw [if_pos h0, if_pos h4, h5]
    show Rlc.MsId.ulTfi (t % 256) = .ulTfi t
    rw [Nat.mod_eq_of_lt (by omega)]
  | dl t =>
    have ok : t < 32 := ok
    have h0 : m a % 256 = 0 := h0
    have h4 : m (a + 4) % 256 = 1 := h4
    rw [if_pos h0, if_neg (by omega), h5]
    show Rlc.MsId.dlTfi (t % 256) = .dlTfi t
    rw [Nat.mod_eq_of_lt (by omega)]
  | tlli t =>
    have h0 : m a % 256 = 1 := h0
    rw [if_neg (by omega), if_pos h0, getLe_mod4 (x := t) ?_ ok]
    · rfl
    · exact all_succ h4 (all_succ h5 (all_succ h6 (all_succ h7 all_zero)))

theorem memStart_eq {m : Mem} {a : Nat} {t : Rlc.StartTime} (h0 : m a % 256 = stmem t 0 % 256) (h2 : m (a + 2) % 256 = stmem t 2 % 256)
    (h3 : m (a + 3) % 256 = stmem t 3 % 256) (h4 : m (a + 4) % 256 = stmem t 4 % 256) (ok : StartOk t) : memStart m a = t := by
  unfold memStart
  cases t with
  | abs t1 t3 t2 =>
    obtain ⟨o1, o2, o3⟩ := ok
    have h0 : m a % 256 = 0 := h0
    rw [if_pos h0, h2, h3, h4]
    show Rlc.StartTime.abs (t1 % 256) (t3 % 256) (t2 % 256) = _
    rw [Nat.mod_eq_of_lt (by omega), Nat.mod_eq_of_lt (by omega), Nat.mod_eq_of_lt (by omega)]
  | rel k =>
    have ok : k < 8192 := ok
    have h0 : m a % 256 = 1 := h0
    rw [if_neg (by omega), getLe_mod2 (x := k) ?_ (by omega)]
    exact all_succ h2 (all_succ h3 all_zero)

theorem getLe_flag4 {α : Type} {m : Mem} {a : Nat} {o : Option α} (h0 : m a % 256 = flag o % 256) (h1 : m (a + 1) % 256 = 0)
    (h2 : m (a + 2) % 256 = 0) (h3 : m (a + 3) % 256 = 0) : getLe m a 4 = flag o := by
  simp only [getLe, h0, h1, h2, h3, flag_mod]
  rfl

theorem getLe_flag1 {α : Type} {m : Mem} {a : Nat} {o : Option α} (h0 : m a % 256 = flag o % 256) : getLe m a 1 = flag o := by
  simp only [getLe, h0, flag_mod]
  rfl

theorem memStart?_eq {m : Mem} {e w a : Nat} {o : Option Rlc.StartTime} (he : getLe m e w = flag o)
    (h0 : m a % 256 = o.elim nomem stmem 0 % 256) (h2 : m (a + 2) % 256 = o.elim nomem stmem 2 % 256)
    (h3 : m (a + 3) % 256 = o.elim nomem stmem 3 % 256) (h4 : m (a + 4) % 256 = o.elim nomem stmem 4 % 256) (ok : ∀ t, o = some t → StartOk t) :
    memStart? m e w a = o := by
  unfold memStart?
  rw [he]
  cases o with
  | none => rfl
  | some t =>
    rw [if_pos (by simp [flag]), memStart_eq h0 h2 h3 h4 (ok t rfl)]

theorem memSlots_eq (x : Nat) : memSlots x = natBits 8 x := by
  have : ∀ k, ((x >>> k) % 2 == 1) = x.testBit k := by
    intro k
    rw [Nat.testBit, Nat.one_and_eq_mod_two]
    rcases Nat.mod_two_eq_zero_or_one (x >>> k) with h | h <;> rw [h] <;> rfl
  simp [memSlots, natBits, List.range, List.range.loop, this]

theorem optNat_eq {m : Mem} {e a x : Nat} {o : Option Nat} (he : e = flag o) (h : m a % 256 = o.getD 0 % 256) (ok : ∀ y, o = some y → y < x) (hx : x ≤ 256) :
    (if e ≠ 0 then some (m a % 256) else none) = o := by
  rw [he]
  cases o with
  | none => rfl
  | some y =>
    have := ok y rfl
    rw [if_pos (by simp [flag]), h]
    show some (y % 256) = _
    rw [Nat.mod_eq_of_lt (by omega)]

theorem bool_mod (b : Bool) : (b.toNat % 256 != 0) = b := by cases b <;> rfl

theorem type_bits {v : List Bool} {st mt : Nat} {B : List Bool} (h : Contains v st (natBits 6 mt ++ B)) (hm : mt < 64) : bitsVal v st 6 = mt :=
  bitsVal_reads (Reads.append.mp (contains_reads.mp h)).1 hm

/-- The poll of a block. -/
def pollOf (v : List Bool) : Option Nat := if fieldAt v 4 1 = 1 then some (fieldAt v 2 2) else none

theorem read_da {v : List Bool} {st : Nat} {d : DlAssignment} (ok : d.Ok) (hst : dlStart v = some st) (hs : st + d.bits.length ≤ 184)
    (hr : Contains v st d.bits) :
    readCtrl v = .ok (.dlAss d.station.msId (.pkt d.tfi d.start (natBits 8 d.slots)) d.ctrlAck, pollOf v) := by
  have hty : bitsVal v st 6 = 2 := type_bits (B := d.bits.drop 6) (by
    rw [show natBits 6 2 ++ d.bits.drop 6 = d.bits by simp [DlAssignment.bits, natBits]]; exact hr) (by decide)
  have hlay := (lay_da ok).zero [73, 74, 75, 105, 106, 107] (by
    intro a ha
    simp at ha
    rcases ha with rfl | rfl | rfl | rfl | rfl | rfl <;> rfl)
  obtain ⟨s, h1, h2, h3⟩ := recv_dl (mt := 2) rfl hlay hst hs hty hr (by simp [dlUnion]) rfl
  have hc : memCtrl s.mem = memDlAss s.mem := by
    unfold memCtrl
    have : s.mem 0 % 256 = 2 := h2 0 (by decide)
    rw [if_pos this]
  unfold readCtrl
  rw [h1]
  dsimp only
  rw [h3, hc]
  unfold memDlAss
  rw [memId_eq (st := d.station) (h2 12 (by decide)) (h2 16 (by decide)) (h2 17 (by decide)) (h2 18 (by decide)) (h2 19 (by decide)) ok.station,
    optNat_eq (o := d.tfi) (x := 32) (getLe_flag4 (h2 72 (by decide)) (h2 73 (by decide)) (h2 74 (by decide)) (h2 75 (by decide))) (h2 76 (by decide)) ok.tfi (by decide),
    memStart?_eq (o := d.start) (getLe_flag4 (h2 104 (by decide)) (h2 105 (by decide)) (h2 106 (by decide)) (h2 107 (by decide))) (h2 108 (by decide)) (h2 110 (by decide))
      (h2 111 (by decide)) (h2 112 (by decide)) ok.start, memSlots_eq, h2 23 (by decide), h2 22 (by decide),
    show daMem d 23 % 256 = d.slots from Nat.mod_eq_of_lt ok.slots, show (daMem d 22 % 256 != 0) = d.ctrlAck from bool_mod _]
  rfl

theorem memUsf_eq {m : Mem} {e : Nat} {o : Option Nat} (h : m e % 256 = flag o % 256) (h1 : m (e + 1) % 256 = o.getD 0 % 256)
    (ok : ∀ y, o = some y → y < 8) : memUsf m e = o := by
  unfold memUsf
  exact optNat_eq (x := 8) (by rw [h, flag_mod]; rfl) h1 ok (by decide)

theorem read_ua {v : List Bool} {st : Nat} {d : UlAssignment} (ok : d.Ok) (hst : dlStart v = some st) (hs : st + d.bits.length ≤ 184)
    (hr : Contains v st d.bits) :
    readCtrl v = .ok (.ulAss d.station.msId (.dynamic d.tfi d.start ((List.range 8).map d.slots.usf)) d.codingCommand, pollOf v) := by
  have hty : bitsVal v st 6 = 10 := type_bits (B := d.bits.drop 6) (by
    rw [show natBits 6 10 ++ d.bits.drop 6 = d.bits by simp [UlAssignment.bits, natBits]]; exact hr) (by decide)
  obtain ⟨s, h1, h2, h3⟩ := recv_dl (mt := 10) rfl (lay_ua ok) hst hs hty hr (by
    intro a ha
    have : a < 200 := by revert ha; revert a; decide
    exact Nat.lt_trans this (by decide)) rfl
  have hc : memCtrl s.mem = memUlAss s.mem := by
    unfold memCtrl
    have : s.mem 0 % 256 = 10 := h2 0 (by decide)
    rw [if_neg (by omega), if_neg (by omega), if_pos this]
  have hsl : (List.range 8).map (fun i => if s.mem 74 % 256 = 0 then memUsf s.mem (75 + 2 * i) else memUsf s.mem (76 + 3 * i)) =
      (List.range 8).map d.slots.usf := by
    have hC : ∀ k, k < 25 → s.mem (74 + k) % 256 = slmem d.slots k % 256 := by
      intro k hk
      rw [h2 (74 + k) (List.mem_append.mpr (Or.inr (List.mem_map.mpr ⟨k, List.mem_range.mpr hk, rfl⟩)))]
      unfold uaMem
      repeat rw [if_neg (by omega)]
      rw [if_pos (by omega), show 74 + k - 74 = k by omega]
    apply List.map_congr_left
    intro i hi
    have hi := List.mem_range.mp hi
    have h74 := hC 0 (by decide)
    have hok := ok.slots
    cases hsl : d.slots with
    | plain usf =>
      rw [hsl] at hC h74 hok
      have h74 : s.mem 74 % 256 = 0 := h74
      rw [if_pos h74]
      refine memUsf_eq ?_ ?_ (hok i)
      · rw [show 75 + 2 * i = 74 + (2 * i + 1) by omega, hC _ (by omega)]
        unfold slmem
        dsimp only
        rw [if_neg (by omega), if_pos (by omega), if_pos (by omega), show (2 * i + 1) / 2 = i by omega]
        rfl
      · rw [show 75 + 2 * i + 1 = 74 + (2 * i + 2) by omega, hC _ (by omega)]
        unfold slmem
        dsimp only
        rw [if_neg (by omega), if_pos (by omega), if_neg (by omega), show (2 * i + 2 - 1) / 2 = i by omega]
        rfl
    | power alpha slot =>
      rw [hsl] at hC h74 hok
      rw [if_neg (by rw [show s.mem 74 % 256 = _ from h74]; show ¬ 1 % 256 = 0; decide)]
      refine memUsf_eq (o := (slot i).map Prod.fst) ?_ ?_ ?_
      · rw [show 76 + 3 * i = 74 + (3 * i + 2) by omega, hC _ (by omega)]
        unfold slmem
        dsimp only
        rw [if_neg (by omega), if_neg (by omega), if_pos (by omega), if_pos (by omega), show (3 * i + 2 - 2) / 3 = i by omega]
        unfold flag
        rw [Option.isSome_map]
      · rw [show 76 + 3 * i + 1 = 74 + (3 * i + 3) by omega, hC _ (by omega)]
        unfold slmem
        dsimp only
        rw [if_neg (by omega), if_neg (by omega), if_pos (by omega), if_neg (by omega), if_pos (by omega), show (3 * i + 3 - 2) / 3 = i by omega]
        cases slot i <;> rfl
      · intro y hy
        obtain ⟨p, hp, rfl⟩ := Option.map_eq_some_iff.mp hy
        exact (hok.2 i p hp).1
  unfold readCtrl
  rw [h1]
  dsimp only
  rw [h3, hc]
  unfold memUlAss memPktUlAss
  have h16 : s.mem 16 % 256 = 0 := h2 16 (by decide)
  have h56 : s.mem 56 % 256 = 1 := h2 56 (by decide)
  have h20 : s.mem 20 % 256 = d.codingCommand := (h2 20 (by decide)).trans (Nat.mod_eq_of_lt (by have := ok.codingCommand; show d.codingCommand < 256; omega))
  have h63 : s.mem 63 % 256 = flag d.tfi := (h2 63 (by decide)).trans (flag_mod _)
  rw [if_pos h16, if_pos h56, hsl, h20,
    memId_eq (st := d.station) (h2 8 (by decide)) (h2 12 (by decide)) (h2 13 (by decide)) (h2 14 (by decide)) (h2 15 (by decide)) ok.station,
    optNat_eq (o := d.tfi) (x := 32) h63 (h2 64 (by decide)) ok.tfi (by decide),
    memStart?_eq (o := d.start) (getLe_flag1 (h2 67 (by decide))) (h2 68 (by decide)) (h2 70 (by decide))
      (h2 71 (by decide)) (h2 72 (by decide)) ok.start]
  rfl

theorem ofNat_mod256 (x : Nat) : UInt8.ofNat x = UInt8.ofNat (x % 256) := by
  apply UInt8.toNat.inj
  simp

theorem read_uk {v : List Bool} {st : Nat} {d : UlReport} (ok : d.Ok) (hst : dlStart v = some st) (hs : st + d.bits.length ≤ 184)
    (hr : Contains v st d.bits) :
    readCtrl v = .ok (.ulAck d.tfi ⟨d.final, d.ssn, d.bitmap⟩ (d.r99.elim false UlAckR99.tbfEst) d.codingCommand, pollOf v) := by
  have hty : bitsVal v st 6 = 9 := type_bits (B := d.bits.drop 6) (by
    rw [show natBits 6 9 ++ d.bits.drop 6 = d.bits by simp [UlReport.bits, natBits]]; exact hr) (by decide)
  have hlay := (lay_uk ok).zero [21, 22, 23] (by
    intro a ha
    simp at ha
    rcases ha with rfl | rfl | rfl <;> rfl)
  obtain ⟨s, h1, h2, h3⟩ := recv_dl (mt := 9) rfl hlay hst hs hty hr (by
    intro a ha
    have : a < 200 := by revert ha; revert a; decide
    exact Nat.lt_trans this (by decide)) rfl
  have hc : memCtrl s.mem = memUlAck s.mem := by
    unfold memCtrl
    have : s.mem 0 % 256 = 9 := h2 0 (by decide)
    rw [if_neg (by omega), if_pos this]
  unfold readCtrl
  rw [h1]
  dsimp only
  rw [h3, hc]
  unfold memUlAck
  have hbm : (List.range 8).map (fun i => UInt8.ofNat (s.mem (7 + i))) = d.bitmap := by
    apply List.ext_getElem
    · simp [ok.len]
    · intro i hi hi'
      simp only [List.getElem_map, List.getElem_range]
      have hi8 : i < 8 := by simpa using hi
      rw [ofNat_mod256, h2 (7 + i) (List.mem_append.mpr (Or.inr (List.mem_append.mpr (Or.inr (List.mem_map.mpr ⟨i, List.mem_range.mpr hi8, rfl⟩))))), ← ofNat_mod256]
      unfold ukMem
      rw [if_neg (by omega), if_neg (by omega), if_neg (by omega), if_neg (by omega), if_neg (by omega), if_neg (by omega), if_pos (by omega),
        show 7 + i - 7 = i by omega, List.getD_eq_getElem?_getD, List.getElem?_map, List.getElem?_eq_getElem hi']
      simp
  have h2' : s.mem 2 % 256 = d.tfi := (h2 2 (by decide)).trans (Nat.mod_eq_of_lt (by have := ok.tfi; show d.tfi < 256; omega))
  have h4' : s.mem 4 % 256 = d.codingCommand := (h2 4 (by decide)).trans (Nat.mod_eq_of_lt (by have := ok.codingCommand; show d.codingCommand < 256; omega))
  have h6' : s.mem 6 % 256 = d.ssn := (h2 6 (by decide)).trans (Nat.mod_eq_of_lt (by have := ok.ssn; show d.ssn < 256; omega))
  have h20 : getLe s.mem 20 4 = flag d.r99 := getLe_flag4 (h2 20 (by decide)) (h2 21 (by decide)) (h2 22 (by decide)) (h2 23 (by decide))
  rw [hbm, h2', h4', h6', h20, h2 5 (by decide), h2 29 (by decide), show (ukMem d 5 % 256 != 0) = d.final from bool_mod _]
  have : (flag d.r99 != 0 && ukMem d 29 % 256 != 0) = d.r99.elim false UlAckR99.tbfEst := by
    show (flag d.r99 != 0 && (d.r99.elim 0 fun r => r.tbfEst.toNat) % 256 != 0) = _
    cases d.r99 with
    | none => rfl
    | some r => simp [flag, bool_mod]
  rw [this]
  rfl

end Verif.Csn1
