import Verif.Csn1.RecvLemmas

/-!
# Layout of the messages the station acts on: uplink assignment, uplink acknowledgement
-/
namespace Verif.Csn1

open Spec

/-- The union of timeslots of `Dynamic_Allocation_t` in memory. -/
def slmem : UlSlots → Nat → Nat
  | .plain usf, k =>
    if k = 0 then 0 else if k < 17 then if k % 2 = 1 then flag (usf (k / 2)) else (usf ((k - 1) / 2)).getD 0 else 0
  | .power alpha slot, k =>
    if k = 0 then 1 else if k = 1 then alpha
    else if k < 26 then
      if (k - 2) % 3 = 0 then flag (slot ((k - 2) / 3))
      else if (k - 2) % 3 = 1 then ((slot ((k - 2) / 3)).getD (0, 0)).1
      else ((slot ((k - 2) / 3)).getD (0, 0)).2
    else 0

theorem lay_slot {m base} {x : Option Nat} (h : m base = flag x) (h1 : m (base + 1) = x.getD 0) (ok : ∀ y, x = some y → y < 8) :
    Lay m base t_Timeslot_Allocation (Spec.opt (x.map fun y => natBits 3 y)) [base, base + 1] := by
  refine (Lay.opt (sub := [_]) (o := x) (f := fun y => natBits 3 y) (C := [base + 1]) rfl (by decide) rfl ?_ ?_ ?_ Lay.nil).cast (by simp) (by simp)
  · rw [Nat.add_zero, h]; exact flag_mod _
  · intro y hy
    have := ok y hy
    refine (Lay.line (LayD.oct (by decide) (by decide) (x := y) ?_ this) Lay.nil).cast (by simp) (by simp)
    rw [h1]; simp [hy]; omega
  · intro hx a ha
    obtain rfl := List.mem_singleton.mp ha
    rw [h1, hx]; rfl

theorem lay_pslot {m base off} {x : Option (Nat × Nat)} {B' C' t} (h : m (base + off) = flag x) (h1 : m (base + (off + 1)) = (x.getD (0, 0)).1)
    (h2 : m (base + (off + 2)) = (x.getD (0, 0)).2) (ok : ∀ p, x = some p → p.1 < 8 ∧ p.2 < 32)
    (h' : Lay m base t B' C') :
    Lay m base (.nextExist false off 1 2 false :: .uint (off + 1) 1 3 false :: .uint (off + 2) 1 5 false :: t)
      (Spec.opt (x.map fun p => natBits 3 p.1 ++ natBits 5 p.2) ++ B')
      ((base + off) :: (base + (off + 1)) :: (base + (off + 2)) :: C') := by
  refine Lay.opt (sub := [_, _]) (o := x) (f := fun p => natBits 3 p.1 ++ natBits 5 p.2) (C := [base + (off + 1), base + (off + 2)]) rfl (by decide) rfl ?_ ?_ ?_ h'
  · rw [h]; exact flag_mod _
  · intro y hy
    obtain ⟨g1, g2⟩ := ok y hy
    refine (Lay.line (LayD.oct (by decide) (by decide) (x := y.1) ?_ g1) (Lay.line (LayD.oct (by decide) (by decide) (x := y.2) ?_ g2) Lay.nil)).cast (by simp) (by simp)
    · rw [h1]; simp [hy]; omega
    · rw [h2]; simp [hy]; omega
  · intro hx a ha
    simp at ha
    rcases ha with rfl | rfl
    · rw [h1, hx]; rfl
    · rw [h2, hx]; rfl

/-- The last lines of `Dynamic_Allocation_t`. -/
theorem lay_slots {m base} {x : UlSlots} (h : ∀ k, k < 26 → m (base + (16 + k)) = slmem x k) (ok : x.Ok) :
    Lay m base [.union false 16 1 2, .tarr 17 16 2 8 t_Timeslot_Allocation, .typ 17 false t_Timeslot_Allocation_Power_Ctrl_Param] x.bits
      ((List.range 25).map fun i => base + (16 + i)) := by
  cases x with
  | plain usf =>
    refine ((Lay.union (i := 0) (pre := []) (post := [_]) (t := []) (by decide) rfl (by decide) ?_ (by decide)
      (LayD.tarr (B := fun i => Spec.opt ((usf i).map fun x => natBits 3 x)) (C := fun i => [base + 17 + i * 2, base + 17 + i * 2 + 1]) (by decide) ?_) Lay.nil).zero
      ((List.range 8).map fun i => base + (33 + i)) ?_).cast ?_ ?_
    · rw [show base + 16 = base + (16 + 0) from rfl, h 0 (by decide)]; rfl
    · intro k hk
      refine lay_slot ?_ ?_ (ok k)
      · rw [show base + 17 + k * 2 = base + (16 + (2 * k + 1)) by omega, h _ (by omega)]
        unfold slmem
        dsimp only
        rw [if_neg (by omega), if_pos (by omega), if_pos (by omega), show (2 * k + 1) / 2 = k by omega]
      · rw [show base + 17 + k * 2 + 1 = base + (16 + (2 * k + 2)) by omega, h _ (by omega)]
        unfold slmem
        dsimp only
        rw [if_neg (by omega), if_pos (by omega), if_neg (by omega), show (2 * k + 2 - 1) / 2 = k by omega]
    · intro a ha
      obtain ⟨i, hi, rfl⟩ := List.mem_map.mp ha
      have := List.mem_range.mp hi
      rw [show base + (33 + i) = base + (16 + (17 + i)) by omega, h _ (by omega)]
      unfold slmem
      dsimp only
      rw [if_neg (by omega), if_neg (by omega)]
    · simp [UlSlots.bits, ixBits, natBits]
    · simp [List.range, List.range.loop]
  | power alpha slot =>
    have hz : m (base + 16) % 256 = 1 := by rw [show base + 16 = base + (16 + 0) from rfl, h 0 (by decide)]; rfl
    have e0 : ∀ i, i < 8 → m (base + 17 + (3 * i + 1)) = flag (slot i) := by
      intro i hi
      rw [show base + 17 + (3 * i + 1) = base + (16 + (3 * i + 2)) by omega, h _ (by omega)]
      unfold slmem
      dsimp only
      rw [if_neg (by omega), if_neg (by omega), if_pos (by omega), if_pos (by omega), show (3 * i + 2 - 2) / 3 = i by omega]
    have e1 : ∀ i, i < 8 → m (base + 17 + (3 * i + 1 + 1)) = ((slot i).getD (0, 0)).1 := by
      intro i hi
      rw [show base + 17 + (3 * i + 1 + 1) = base + (16 + (3 * i + 3)) by omega, h _ (by omega)]
      unfold slmem
      dsimp only
      rw [if_neg (by omega), if_neg (by omega), if_pos (by omega), if_neg (by omega), if_pos (by omega), show (3 * i + 3 - 2) / 3 = i by omega]
    have e2 : ∀ i, i < 8 → m (base + 17 + (3 * i + 1 + 2)) = ((slot i).getD (0, 0)).2 := by
      intro i hi
      rw [show base + 17 + (3 * i + 1 + 2) = base + (16 + (3 * i + 4)) by omega, h _ (by omega)]
      unfold slmem
      dsimp only
      rw [if_neg (by omega), if_neg (by omega), if_pos (by omega), if_neg (by omega), if_neg (by omega), show (3 * i + 4 - 2) / 3 = i by omega]
    have hp : ∀ i, i < 8 → ∀ {B' C' t}, Lay m (base + 17) t B' C' → _ := fun i hi B' C' t g =>
      lay_pslot (x := slot i) (e0 i hi) (e1 i hi) (e2 i hi) (ok.2 i) g
    refine (Lay.union (i := 1) (pre := [_]) (post := []) (t := []) (by decide) rfl (by decide) hz (by decide)
      (LayD.typ (Lay.line (LayD.oct (by decide) (by decide) (x := alpha) ?_ ok.1)
        (hp 0 (by decide) (hp 1 (by decide) (hp 2 (by decide) (hp 3 (by decide) (hp 4 (by decide) (hp 5 (by decide) (hp 6 (by decide) (hp 7 (by decide) Lay.nil)))))))))) Lay.nil).cast ?_ ?_
    · have := ok.1
      rw [show base + 17 + 0 = base + (16 + 1) from rfl, h 1 (by decide)]
      show alpha % 256 = _; omega
    · simp [UlSlots.bits, ixBits, natBits, List.range, List.range.loop]
    · simp [List.range, List.range.loop, Nat.add_assoc]

/-- `Packet_Uplink_Assignment_t` in memory. -/
def uaMem (d : UlAssignment) : Mem := fun a =>
  if a = 0 then 10 else if a = 1 then d.page else if a = 2 then flag d.persistence
  else if 3 ≤ a ∧ a < 7 then (d.persistence.elim nomem psmem) (a - 3)
  else if 8 ≤ a ∧ a < 16 then idmem d.station (a - 8)
  else if a = 20 then d.codingCommand else if a = 21 then d.tlliCoding
  else if 22 ≤ a ∧ a < 27 then tamem d.ta (a - 22)
  else if a = 27 then flag d.freq
  else if 28 ≤ a ∧ a < 56 then (d.freq.elim nomem frmem) (a - 28)
  else if a = 56 then 1 else if a = 58 then d.extended
  else if a = 59 then flag d.p0 else if a = 60 then (d.p0.getD (0, 0)).1 else if a = 61 then (d.p0.getD (0, 0)).2
  else if a = 62 then d.granularity
  else if a = 63 then flag d.tfi else if a = 64 then d.tfi.getD 0
  else if a = 65 then flag d.granted else if a = 66 then d.granted.getD 0
  else if a = 67 then flag d.start
  else if 68 ≤ a ∧ a < 73 then (d.start.elim nomem stmem) (a - 68)
  else if 74 ≤ a ∧ a < 100 then slmem d.slots (a - 74)
  else 0

theorem lay_dyn {d : UlAssignment} (ok : d.Ok) :
    Lay (uaMem d) 58 t_Dynamic_Allocation (natBits 1 d.extended ++ Spec.opt (d.p0.map fun p => natBits 4 p.1 ++ natBits 1 p.2) ++ natBits 1 d.granularity ++
      Spec.opt (d.tfi.map fun x => natBits 5 x) ++ Spec.opt (d.granted.map fun x => natBits 8 x) ++
      Spec.opt (d.start.map startBits) ++ d.slots.bits)
      ([63, 64, 67, 68, 70, 71, 72] ++ (List.range 25).map fun i => 74 + i) := by
  unfold t_Dynamic_Allocation
  refine (Lay.line (LayD.oct (x := d.extended) (by decide) (by decide) ?_ ok.extended)
    (Lay.opt (sub := [_, _]) (o := d.p0) (f := fun p => natBits 4 p.1 ++ natBits 1 p.2) (C := []) rfl (by decide) rfl (flag_mod _) ?_ (by simp)
    (Lay.line (LayD.oct (x := d.granularity) (by decide) (by decide) ?_ ok.granularity)
    (Lay.opt (sub := [_]) (o := d.tfi) (f := fun x => natBits 5 x) (C := [64]) rfl (by decide) rfl (flag_mod _) ?_ ?_
    (Lay.opt (sub := [_]) (o := d.granted) (f := fun x => natBits 8 x) (C := []) rfl (by decide) rfl (flag_mod _) ?_ (by simp)
    (Lay.opt (sub := [_]) (o := d.start) (f := startBits) (C := [68, 70, 71, 72]) rfl (by decide) rfl (flag_mod _) ?_ ?_
    (lay_slots (x := d.slots) ?_ ok.slots))))))).cast ?_ ?_
  · have := ok.extended
    exact Nat.mod_eq_of_lt (show d.extended < 256 by omega)
  · intro p hp
    obtain ⟨h1, h2⟩ := ok.p0 p hp
    refine (Lay.line (LayD.oct (x := p.1) (by decide) (by decide) ?_ h1) (Lay.line (LayD.oct (x := p.2) (by decide) (by decide) ?_ h2) Lay.nil)).cast (by simp) (by simp)
    · show (d.p0.getD (0, 0)).1 % 256 = _
      rw [hp]; exact Nat.mod_eq_of_lt (show p.1 < 256 by omega)
    · show (d.p0.getD (0, 0)).2 % 256 = _
      rw [hp]; exact Nat.mod_eq_of_lt (show p.2 < 256 by omega)
  · have := ok.granularity
    exact Nat.mod_eq_of_lt (show d.granularity < 256 by omega)
  · intro x hx
    have := ok.tfi x hx
    refine (Lay.line (LayD.oct (x := x) (by decide) (by decide) ?_ this) Lay.nil).cast (by simp) (by simp)
    show d.tfi.getD 0 % 256 = x
    rw [hx]; exact Nat.mod_eq_of_lt (show x < 256 by omega)
  · intro hx a ha
    obtain rfl := List.mem_singleton.mp ha
    show d.tfi.getD 0 = 0
    rw [hx]; rfl
  · intro x hx
    have := ok.granted x hx
    refine (Lay.line (LayD.oct (x := x) (by decide) (by decide) ?_ this) Lay.nil).cast (by simp) (by simp)
    show d.granted.getD 0 % 256 = x
    rw [hx]; exact Nat.mod_eq_of_lt (show x < 256 by omega)
  · intro p hp
    refine (Lay.line (LayD.typ (lay_start ?_ (ok.start p hp))) Lay.nil).cast (by simp) (by simp)
    simp only [uaMem, hp, Option.elim_some]
    repeat (refine all_succ rfl ?_)
    exact all_zero
  · intro hx a ha
    simp only [uaMem, hx, Option.elim_none]
    simp at ha
    rcases ha with rfl | rfl | rfl | rfl <;> rfl
  · repeat (refine all_succ rfl ?_)
    exact all_zero
  · simp
  · simp [List.range, List.range.loop]

theorem lay_ua {d : UlAssignment} (ok : d.Ok) :
    Lay (uaMem d) 0 t_Packet_Uplink_Assignment.dropLast d.bits
      ([0, 8, 12, 13, 14, 15, 16, 20, 56, 63, 64, 67, 68, 70, 71, 72] ++ (List.range 25).map fun i => 74 + i) := by
  unfold t_Packet_Uplink_Assignment
  refine (Lay.line (LayD.oct (x := 10) (by decide) (by decide) rfl (by decide))
    (Lay.line (LayD.oct (x := d.page) (by decide) (by decide) ?_ ok.page)
    (Lay.opt (sub := [_]) (o := d.persistence) (f := Persistence.bits) (C := []) rfl (by decide) rfl (flag_mod _) ?_ (by simp)
    (Lay.line (LayD.typ (lay_id (st := d.station) ?_ ok.station))
    (Lay.union (i := 0) (pre := []) (post := [_]) (t := []) (by decide) rfl (by decide) rfl (by decide)
    (LayD.typ (Lay.line (LayD.oct (x := d.codingCommand) (by decide) (by decide) ?_ ok.codingCommand)
      (Lay.line (LayD.oct (x := d.tlliCoding) (by decide) (by decide) ?_ ok.tlliCoding)
      (Lay.line (LayD.typ (lay_ta (t := d.ta) ?_ ok.ta))
      (Lay.opt (sub := [_]) (o := d.freq) (f := Freq.bits) (C := []) rfl (by decide) rfl (flag_mod _) ?_ (by simp)
      (Lay.union (i := 1) (pre := [_]) (post := [_, _]) (by decide) rfl (by decide) rfl (by decide) (LayD.typ (lay_dyn ok))
      (Lay.opt (sub := [_]) (o := (none : Option Unit)) (f := fun _ => []) (C := []) rfl (by decide) rfl rfl (fun _ h => nomatch h) (by simp)
      Lay.nil))))))) Lay.nil))))).cast ?_ ?_
  · have := ok.page
    exact Nat.mod_eq_of_lt (show d.page < 256 by omega)
  · intro p hp
    refine lay_pers ?_ (ok.persistence p hp)
    simp only [uaMem, hp, Option.elim_some]
    repeat (refine all_succ rfl ?_)
    exact all_zero
  · repeat (refine all_succ rfl ?_)
    exact all_zero
  · have := ok.codingCommand
    exact Nat.mod_eq_of_lt (show d.codingCommand < 256 by omega)
  · have := ok.tlliCoding
    exact Nat.mod_eq_of_lt (show d.tlliCoding < 256 by omega)
  · repeat (refine all_succ rfl ?_)
    exact all_zero
  · intro p hp
    refine (Lay.line (LayD.typ (lay_freq ?_ (ok.freq p hp))) Lay.nil).cast (by simp) (by simp)
    simp only [uaMem, hp, Option.elim_some]
    repeat (refine all_succ rfl ?_)
    exact all_zero
  · simp [UlAssignment.bits, Spec.opt, natBits, ixBits]
    decide
  · simp [List.range, List.range.loop]

/-- `Packet_Uplink_Ack_Nack_t` in memory. -/
def ukMem (d : UlReport) : Mem := fun a =>
  if a = 0 then 9 else if a = 1 then d.page else if a = 2 then d.tfi
  else if a = 4 then d.codingCommand else if a = 5 then d.final.toNat else if a = 6 then d.ssn
  else if 7 ≤ a ∧ a < 15 then (d.bitmap.map UInt8.toNat).getD (a - 7) 0
  else if a = 20 then flag d.r99
  else if a = 24 then flag (d.r99.bind UlAckR99.ext) else if a = 28 then (d.r99.bind UlAckR99.ext).getD 0
  else if a = 29 then (d.r99.elim 0 fun r => r.tbfEst.toNat)
  else if a = 32 then flag d.tlli
  else if 36 ≤ a ∧ a < 40 then (d.tlli.elim nomem lo) (a - 36)
  else if a = 40 then flag d.ta
  else if 41 ≤ a ∧ a < 46 then (d.ta.elim nomem tamem) (a - 41)
  else if a = 56 then flag d.power
  else if 57 ≤ a ∧ a < 74 then (d.power.elim nomem pwmem) (a - 57)
  else 0

theorem lay_uk {d : UlReport} (ok : d.Ok) :
    Lay (ukMem d) 0 t_Packet_Uplink_Ack_Nack.dropLast d.bits
      ([0, 2, 4, 5, 6, 20, 29] ++ (List.range 8).map fun i => 7 + i) := by
  unfold t_Packet_Uplink_Ack_Nack
  have hl : (d.bitmap.map UInt8.toNat).length = 8 := by rw [List.length_map]; exact ok.len
  refine (Lay.line (LayD.oct (x := 9) (by decide) (by decide) rfl (by decide))
    (Lay.line (LayD.oct (x := d.page) (by decide) (by decide) ?_ ok.page)
    (Lay.line (LayD.fixed (by decide))
    (Lay.line (LayD.oct (x := d.tfi) (by decide) (by decide) ?_ ok.tfi)
    (Lay.union (i := 0) (pre := []) (post := [_]) (t := []) (by decide) rfl (by decide) rfl (by decide)
    (LayD.typ (Lay.line (LayD.oct (x := d.codingCommand) (by decide) (by decide) ?_ ok.codingCommand)
      (Lay.line (LayD.typ (Lay.line (LayD.oct (x := d.final.toNat) (by decide) (by decide) ?_ ?_)
        (Lay.line (LayD.oct (x := d.ssn) (by decide) (by decide) ?_ ok.ssn)
        (Lay.line (LayD.bitmap (l := d.bitmap.map UInt8.toNat) hl (by decide) ?_) Lay.nil))))
      (Lay.opt (sub := [_]) (o := d.tlli) (f := fun x => natBits 32 x) (C := []) rfl (by decide) rfl (flag_mod _) ?_ (by simp)
      (Lay.opt (sub := [_]) (o := d.ta) (f := TimingAdv.bits) (C := []) rfl (by decide) rfl (flag_mod _) ?_ (by simp)
      (Lay.opt (sub := [_]) (o := d.power) (f := Power.bits) (C := []) rfl (by decide) rfl (flag_mod _) ?_ (by simp)
      (Lay.opt (sub := [_]) (o := (none : Option Unit)) (f := fun _ => []) (C := []) rfl (by decide) rfl rfl (fun _ h => nomatch h) (by simp)
      (Lay.union (i := 0) (pre := []) (post := [_]) (by decide) rfl (by decide) rfl (by decide)
        (LayD.oct (x := 0) (by decide) (by decide) rfl (by decide))
      (Lay.opt (sub := [_]) (o := d.r99) (f := fun r => Spec.opt (r.ext.map fun x => natBits 2 x) ++ [r.tbfEst]) (C := [29]) rfl (by decide) rfl (flag_mod _) ?_ ?_
      Lay.nil))))))))) Lay.nil))))).cast ?_ ?_
  · have := ok.page
    exact Nat.mod_eq_of_lt (show d.page < 256 by omega)
  · have := ok.tfi
    exact Nat.mod_eq_of_lt (show d.tfi < 256 by omega)
  · have := ok.codingCommand
    exact Nat.mod_eq_of_lt (show d.codingCommand < 256 by omega)
  · show d.final.toNat % 256 = _
    cases d.final <;> rfl
  · cases d.final <;> decide
  · have := ok.ssn
    exact Nat.mod_eq_of_lt (show d.ssn < 256 by omega)
  · intro k x hk
    have hk8 : k < 8 := by
      obtain ⟨h, _⟩ := List.getElem?_eq_some_iff.mp hk
      omega
    have hx : x < 256 := by
      rw [List.getElem?_map] at hk
      obtain ⟨y, _, rfl⟩ := Option.map_eq_some_iff.mp hk
      exact y.toNat_lt
    have : ukMem d (0 + 4 + 1 + 2 + k) = x := by
      have e : (d.bitmap.map UInt8.toNat).getD (7 + k - 7) 0 = x := by
        rw [List.getD_eq_getElem?_getD, show 7 + k - 7 = k by omega, hk]; rfl
      show ukMem d (7 + k) = x
      unfold ukMem
      rw [if_neg (by omega), if_neg (by omega), if_neg (by omega), if_neg (by omega), if_neg (by omega), if_neg (by omega), if_pos (by omega), e]
    exact ⟨by rw [this]; exact Nat.mod_eq_of_lt hx, hx⟩
  · intro x hx
    have := ok.tlli x hx
    refine (Lay.line (LayD.uint (x := x) (by decide) (by decide) (getLe_lo4 ?_ this) this) Lay.nil).cast (by simp) (by simp)
    simp only [ukMem, hx, Option.elim_some]
    repeat (refine all_succ rfl ?_)
    exact all_zero
  · intro p hp
    refine (Lay.line (LayD.typ (lay_ta ?_ (ok.ta p hp))) Lay.nil).cast (by simp) (by simp)
    simp only [ukMem, hp, Option.elim_some]
    repeat (refine all_succ rfl ?_)
    exact all_zero
  · intro p hp
    refine (Lay.line (LayD.typ (lay_power ?_ (ok.power p hp))) Lay.nil).cast (by simp) (by simp)
    simp only [ukMem, hp, Option.elim_some]
    repeat (refine all_succ rfl ?_)
    exact all_zero
  · intro r hr
    refine (Lay.line (LayD.typ (Lay.opt (sub := [_]) (o := r.ext) (f := fun x => natBits 2 x) (C := []) rfl (by decide) rfl ?_ ?_ (by simp)
      (Lay.line (LayD.oct (x := r.tbfEst.toNat) (by decide) (by decide) ?_ ?_) Lay.nil))) Lay.nil).cast ?_ (by simp)
    · show flag (d.r99.bind UlAckR99.ext) % 256 = _
      rw [hr]; exact flag_mod _
    · intro x hx
      have := ok.r99 r hr x hx
      refine (Lay.line (LayD.oct (x := x) (by decide) (by decide) ?_ this) Lay.nil).cast (by simp) (by simp)
      show (d.r99.bind UlAckR99.ext).getD 0 % 256 = _
      rw [hr, Option.bind_some, hx]; exact Nat.mod_eq_of_lt (show x < 256 by omega)
    · show (d.r99.elim 0 fun r => r.tbfEst.toNat) % 256 = _
      rw [hr]
      show r.tbfEst.toNat % 256 = _
      cases r.tbfEst <;> rfl
    · cases r.tbfEst <;> decide
    · cases r.tbfEst <;> simp [natBits]
  · intro hx a ha
    obtain rfl := List.mem_singleton.mp ha
    show (d.r99.elim 0 fun r => r.tbfEst.toNat) = 0
    rw [hx]; rfl
  · simp [UlReport.bits, Spec.opt, natBits, ixBits, List.flatMap_map]
    cases d.final <;> decide
  · simp [List.range, List.range.loop]

end Verif.Csn1
