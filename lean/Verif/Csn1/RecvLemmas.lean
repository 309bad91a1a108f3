import Verif.Csn1.RecvRules

/-!
# Layout of the messages the station acts on
-/
namespace Verif.Csn1

open Spec

/-- A flag. -/
def flag {α : Type} (o : Option α) : Nat := if o.isSome then 1 else 0

theorem flag_mod {α : Type} (o : Option α) : flag o % 256 = if o.isSome then 1 else 0 := by
  unfold flag; split <;> rfl

/-- `Packet_Timing_Advance_t` in memory. -/
def tamem (t : TimingAdv) : Nat → Nat
  | 0 => flag t.value
  | 1 => t.value.getD 0
  | 2 => flag t.index
  | 3 => (t.index.getD (0, 0)).1
  | 4 => (t.index.getD (0, 0)).2
  | _ => 0

theorem lay_ta {m base} {t : TimingAdv} (h : ∀ k, k < 5 → m (base + k) = tamem t k) (ok : t.Ok) :
    Lay m base t_Packet_Timing_Advance t.bits [base, base + 1, base + 2, base + 3, base + 4] := by
  unfold t_Packet_Timing_Advance
  refine (Lay.opt (sub := [_]) (o := t.value) (f := fun x => natBits 6 x) (C := [base + 1]) rfl (by decide) rfl ?_ ?_ ?_
    (Lay.opt (sub := [_, _]) (o := t.index) (f := fun p => natBits 4 p.1 ++ natBits 3 p.2) (C := [base + 3, base + 4])
      rfl (by decide) rfl ?_ ?_ ?_ Lay.nil)).cast ?_ ?_
  · rw [h 0 (by decide)]; exact flag_mod _
  · intro x hx
    refine (Lay.line (LayD.oct (by decide) (by decide) (x := x) ?_ (ok.1 x hx)) Lay.nil).cast (by simp) (by simp)
    have := ok.1 x hx
    rw [h 1 (by decide)]; simp [tamem, hx]; omega
  · intro hx a ha
    obtain rfl := List.mem_singleton.mp ha
    rw [h 1 (by decide)]; simp [tamem, hx]
  · rw [h 2 (by decide)]; exact flag_mod _
  · intro x hx
    have := ok.2 x hx
    refine (Lay.line (LayD.oct (by decide) (by decide) (x := x.1) ?_ this.1) (Lay.line (LayD.oct (by decide) (by decide) (x := x.2) ?_ this.2) Lay.nil)).cast (by simp) (by simp)
    · rw [h 3 (by decide)]; simp [tamem, hx]; omega
    · rw [h 4 (by decide)]; simp [tamem, hx]; omega
  · intro hx a ha
    simp at ha
    rcases ha with rfl | rfl
    · rw [h 3 (by decide)]; simp [tamem, hx]
    · rw [h 4 (by decide)]; simp [tamem, hx]
  · simp [TimingAdv.bits]
  · simp

/-- The octet `k` of a number in memory. -/
def lo (x k : Nat) : Nat := x / 256 ^ k % 256

theorem getLe_lo4 {m : Mem} {a x : Nat} (h : ∀ k, k < 4 → m (a + k) = lo x k) (hx : x < 2 ^ 32) : getLe m a 4 = x := by
  apply getLe_four _ _ _ _ hx
  · rw [show m a = _ from h 0 (by decide)]; simp [lo]
  · rw [h 1 (by decide)]; simp [lo]
  · rw [h 2 (by decide)]; simp only [lo, Nat.div_div_eq_div_mul]
  · rw [h 3 (by decide)]; simp only [lo, Nat.div_div_eq_div_mul]

theorem getLe_lo2 {m : Mem} {a x : Nat} (h : ∀ k, k < 2 → m (a + k) = lo x k) (hx : x < 2 ^ 16) : getLe m a 2 = x := by
  apply getLe_two _ _ hx
  · rw [show m a = _ from h 0 (by decide)]; simp [lo]
  · rw [h 1 (by decide)]; simp [lo]

/-- `Starting_Frame_Number_t` in memory. -/
def stmem : Rlc.StartTime → Nat → Nat
  | .abs _ _ _, 0 => 0
  | .abs t1 _ _, 2 => t1
  | .abs _ t3 _, 3 => t3
  | .abs _ _ t2, 4 => t2
  | .rel _, 0 => 1
  | .rel k, 2 => lo k 0
  | .rel k, 3 => lo k 1
  | _, _ => 0

theorem lay_start {m base} {t : Rlc.StartTime} (h : ∀ k, k < 5 → m (base + k) = stmem t k) (ok : StartOk t) :
    Lay m base t_Starting_Frame_Number (startBits t) [base, base + 2, base + 3, base + 4] := by
  unfold t_Starting_Frame_Number
  cases t with
  | abs t1 t3 t2 =>
    obtain ⟨h1, h2, h3⟩ := ok
    refine (Lay.union (i := 0) (pre := []) (post := [_]) (t := []) (by decide) rfl (by decide) ?_ (by decide)
      (LayD.typ (Lay.line (LayD.oct (x := t1) (by decide) (by decide) ?_ h1)
        (Lay.line (LayD.oct (x := t3) (by decide) (by decide) ?_ h2) (Lay.line (LayD.oct (x := t2) (by decide) (by decide) ?_ h3) Lay.nil))))
      Lay.nil).cast ?_ ?_
    · rw [h 0 (by decide)]; rfl
    · rw [h 2 (by decide)]; simp [stmem]; omega
    · rw [Nat.add_assoc, h 3 (by decide)]; simp [stmem]; omega
    · rw [Nat.add_assoc, h 4 (by decide)]; simp [stmem]; omega
    · simp [startBits, ixBits, natBits]
    · simp [Nat.add_assoc]
  | rel k =>
    have ok : k < 8192 := ok
    refine (Lay.union (i := 1) (pre := [_]) (post := []) (t := []) (by decide) rfl (by decide) ?_ (by decide)
      (LayD.uint (x := k) (by decide) (by decide) (getLe_lo2 ?_ (by omega)) ok) Lay.nil |>.zero [base + 4] ?_).cast ?_ ?_
    · rw [h 0 (by decide)]; rfl
    · intro j hj
      rw [Nat.add_assoc, h (2 + j) (by omega)]
      match j, hj with
      | 0, _ => rfl
      | 1, _ => rfl
    · intro a ha
      obtain rfl := List.mem_singleton.mp ha
      exact h 4 (by decide)
    · simp [startBits, ixBits, natBits]
    · simp [uintW, List.range']

/-- `PacketDownlinkID_t`, `PacketUplinkID_t` in memory. -/
def idmem : Station → Nat → Nat
  | .ul _, 0 => 0
  | .ul _, 4 => 0
  | .ul t, 5 => t
  | .dl _, 0 => 0
  | .dl _, 4 => 1
  | .dl t, 5 => t
  | .tlli _, 0 => 1
  | .tlli t, 4 => lo t 0
  | .tlli t, 5 => lo t 1
  | .tlli t, 6 => lo t 2
  | .tlli t, 7 => lo t 3
  | _, _ => 0

/-- A choice between two alternatives, the first of which is taken. -/
theorem LayD.choice0 {m base off sz b sel d ds B C} (hz : 0 < sz) (hm : m (base + off) % 256 = 0) (hb : b.2 < 2 ^ b.1)
    (h : LayD m false base d B C) : LayD m false base (.choice off sz (b :: sel) (d :: ds)) (natBits b.1 b.2 ++ B) ((base + off) :: C) := by
  obtain ⟨l, h1, h2, h3, h4⟩ := h
  refine ⟨[.con b.1 b.2, .implied (base + off) 0] ++ l, fun acc => ?_, forall_mem_append ?_ h2, ?_, ?_⟩
  · unfold layD
    rw [if_neg (by simp; omega), hm]
    unfold layC
    rw [if_pos rfl, hm, h1, List.append_assoc]
  · intro i hi
    simp at hi
    rcases hi with rfl | rfl
    · exact hb
    · exact hm
  · rw [code_append, h3]; simp [code, Item.code]
  · refine covers_append (C := [base + off]) (fun a ha => Or.inl ?_) h4
    obtain rfl := List.mem_singleton.mp ha
    simp [carried, Item.covers]

theorem LayD.choice1 {m base off sz b0 b sel d0 d ds B C} (hz : 0 < sz) (hm : m (base + off) % 256 = 1) (hb : b.2 < 2 ^ b.1)
    (ha : apart b0 b = true)
    (h : LayD m false base d B C) :
    LayD m false base (.choice off sz (b0 :: b :: sel) (d0 :: d :: ds)) (natBits b.1 b.2 ++ B) ((base + off) :: C) := by
  obtain ⟨l, h1, h2, h3, h4⟩ := h
  refine ⟨[.con b.1 b.2, .implied (base + off) 1] ++ l, fun acc => ?_, forall_mem_append ?_ h2, ?_, ?_⟩
  · unfold layD
    rw [if_neg (by simp; omega), hm]
    unfold layC
    rw [if_neg (by decide)]
    rw [show (b :: sel)[1 - 1]? = some b from rfl]
    dsimp only
    rw [if_pos ha]
    unfold layC
    rw [if_pos rfl, hm, h1, List.append_assoc]
  · intro i hi
    simp at hi
    rcases hi with rfl | rfl
    · exact hb
    · exact hm
  · rw [code_append, h3]; simp [code, Item.code]
  · refine covers_append (C := [base + off]) (fun a ha => Or.inl ?_) h4
    obtain rfl := List.mem_singleton.mp ha
    simp [carried, Item.covers]

theorem lay_gtfi {m base u x} (h0 : m base = u) (h1 : m (base + 1) = x) (hu : u < 2) (hx : x < 32) :
    Lay m base t_Global_TFI (natBits 1 u ++ natBits 5 x) [base, base + 1] := by
  unfold t_Global_TFI
  rcases (by omega : u = 0 ∨ u = 1) with rfl | rfl
  · refine (Lay.union (i := 0) (pre := []) (post := [_]) (t := []) (by decide) rfl (by decide) ?_ (by decide)
      (LayD.oct (x := x) (by decide) (by decide) ?_ hx) Lay.nil).cast (by simp [ixBits]) (by simp)
    · show m base % 256 = 0
      omega
    · omega
  · refine (Lay.union (i := 1) (pre := [_]) (post := []) (t := []) (by decide) rfl (by decide) ?_ (by decide)
      (LayD.oct (x := x) (by decide) (by decide) ?_ hx) Lay.nil).cast (by simp [ixBits]) (by simp)
    · show m base % 256 = 1
      omega
    · omega

/-- Both kinds of identities. -/
theorem lay_id {m base sel ds} {st : Station} (h : ∀ k, k < 8 → m (base + k) = idmem st k) (ok : st.Ok) :
    Lay m base [.choice 0 1 ((1, 0) :: (2, 2) :: sel) (.typ 4 false t_Global_TFI :: .uint 4 4 32 false :: ds)] st.bits
      [base, base + 4, base + 5, base + 6, base + 7] := by
  cases st with
  | ul t =>
    refine (((Lay.line (LayD.choice0 (by decide) ?_ (by decide) (LayD.typ (lay_gtfi (u := 0) (x := t) ?_ ?_ (by decide) ok)))) Lay.nil).zero
      [base + 6, base + 7] ?_).cast ?_ ?_
    · rw [h 0 (by decide)]; rfl
    · rw [h 4 (by decide)]; rfl
    · rw [Nat.add_assoc, h 5 (by decide)]; rfl
    · intro a ha
      simp at ha
      rcases ha with rfl | rfl
      · rw [h 6 (by decide)]; rfl
      · rw [h 7 (by decide)]; rfl
    · simp [Station.bits, natBits]
    · simp [Nat.add_assoc]
  | dl t =>
    refine (((Lay.line (LayD.choice0 (by decide) ?_ (by decide) (LayD.typ (lay_gtfi (u := 1) (x := t) ?_ ?_ (by decide) ok)))) Lay.nil).zero
      [base + 6, base + 7] ?_).cast ?_ ?_
    · rw [h 0 (by decide)]; rfl
    · rw [h 4 (by decide)]; rfl
    · rw [Nat.add_assoc, h 5 (by decide)]; rfl
    · intro a ha
      simp at ha
      rcases ha with rfl | rfl
      · rw [h 6 (by decide)]; rfl
      · rw [h 7 (by decide)]; rfl
    · simp [Station.bits, natBits]
    · simp [Nat.add_assoc]
  | tlli t =>
    refine (Lay.line (LayD.choice1 (by decide) ?_ (by decide) (by decide) (LayD.uint (x := t) (by decide) (by decide) (getLe_lo4 ?_ ok) ok)) Lay.nil).cast ?_ ?_
    · rw [h 0 (by decide)]; rfl
    · intro j hj
      rw [Nat.add_assoc, h (4 + j) (by omega)]
      match j, hj with
      | 0, _ => rfl
      | 1, _ => rfl
      | 2, _ => rfl
      | 3, _ => rfl
    · simp [Station.bits, natBits]; decide
    · simp [uintW, List.range']

/-- `Power_Control_Parameters_t` in memory. -/
def pwmem (p : Power) : Nat → Nat := fun k =>
  if k = 0 then p.alpha
  else if k < 17 then if k % 2 = 1 then flag (p.gamma (k / 2)) else (p.gamma ((k - 1) / 2)).getD 0
  else 0

theorem lay_gamma {m base off x B' C' t} (h : m (base + off) = flag x) (h1 : m (base + (off + 1)) = x.getD 0) (ok : ∀ y, x = some y → y < 32)
    (h' : Lay m base t B' C') :
    Lay m base (.nextExist false off 1 1 false :: .uint (off + 1) 1 5 false :: t) (Spec.opt (x.map fun y => natBits 5 y) ++ B')
      ((base + off) :: (base + (off + 1)) :: C') := by
  refine Lay.opt (sub := [_]) (o := x) (f := fun y => natBits 5 y) (C := [base + (off + 1)]) rfl (by decide) rfl ?_ ?_ ?_ h'
  · rw [h]; exact flag_mod _
  · intro y hy
    have := ok y hy
    refine (Lay.line (LayD.oct (by decide) (by decide) (x := y) ?_ this) Lay.nil).cast (by simp) (by simp)
    rw [h1]; simp [hy]; omega
  · intro hx a ha
    obtain rfl := List.mem_singleton.mp ha
    rw [h1, hx]; rfl

theorem lay_power {m base} {p : Power} (h : ∀ k, k < 17 → m (base + k) = pwmem p k) (ok : p.Ok) :
    Lay m base t_Power_Control_Parameters p.bits [] := by
  unfold t_Power_Control_Parameters
  refine (Lay.line (LayD.oct (by decide) (by decide) (x := p.alpha) ?_ ok.1)
    (lay_gamma (x := p.gamma 0) (h 1 (by decide)) (h 2 (by decide)) (ok.2 _)
    (lay_gamma (x := p.gamma 1) (h 3 (by decide)) (h 4 (by decide)) (ok.2 _)
    (lay_gamma (x := p.gamma 2) (h 5 (by decide)) (h 6 (by decide)) (ok.2 _)
    (lay_gamma (x := p.gamma 3) (h 7 (by decide)) (h 8 (by decide)) (ok.2 _)
    (lay_gamma (x := p.gamma 4) (h 9 (by decide)) (h 10 (by decide)) (ok.2 _)
    (lay_gamma (x := p.gamma 5) (h 11 (by decide)) (h 12 (by decide)) (ok.2 _)
    (lay_gamma (x := p.gamma 6) (h 13 (by decide)) (h 14 (by decide)) (ok.2 _)
    (lay_gamma (x := p.gamma 7) (h 15 (by decide)) (h 16 (by decide)) (ok.2 _) Lay.nil))))))))).cast ?_ (by simp)
  · have := ok.1
    rw [h 0 (by decide)]; show p.alpha % 256 = _; omega
  · simp [Power.bits, List.range, List.range.loop]

/-- `Frequency_Parameters_t` in memory. -/
def frmem : Freq → Nat → Nat
  | .arfcn tsc _, 0 => tsc
  | .arfcn _ _, 1 => 0
  | .arfcn _ n, 2 => lo n 0
  | .arfcn _ n, 3 => lo n 1
  | .indirect tsc _ _ _, 0 => tsc
  | .indirect _ _ _ _, 1 => 1
  | .indirect _ maio _ _, 2 => maio
  | .indirect _ _ ma _, 3 => ma
  | .indirect _ _ _ mark, 4 => flag mark
  | .indirect _ _ _ mark, 5 => (mark.map Prod.fst).getD 0
  | .indirect _ _ _ mark, 6 => flag (mark.bind Prod.snd)
  | .indirect _ _ _ mark, 7 => (mark.bind Prod.snd).getD 0
  | _, _ => 0

theorem lay_freq {m base} {f : Freq} (h : ∀ k, k < 8 → m (base + k) = frmem f k) (ok : f.Ok) :
    Lay m base t_Frequency_Parameters f.bits [] := by
  unfold t_Frequency_Parameters
  cases f with
  | arfcn tsc n =>
    obtain ⟨h1, h2⟩ := ok
    refine (Lay.line (LayD.oct (by decide) (by decide) (x := tsc) ?_ h1) (Lay.union (i := 0) (pre := []) (post := [_, _, _]) (t := []) (by decide) rfl (by decide) ?_ (by decide)
      (LayD.uint (x := n) (by decide) (by decide) (getLe_lo2 ?_ (by omega)) h2) Lay.nil)).cast ?_ (by simp)
    · rw [h 0 (by decide)]; show tsc % 256 = _; omega
    · rw [h 1 (by decide)]; rfl
    · intro j hj
      rw [Nat.add_assoc, h (2 + j) (by omega)]
      match j, hj with
      | 0, _ => rfl
      | 1, _ => rfl
    · simp [Freq.bits, ixBits, natBits]
  | indirect tsc maio ma mark =>
    obtain ⟨h1, h2, h3, h4⟩ := ok
    refine (Lay.line (LayD.oct (by decide) (by decide) (x := tsc) ?_ h1) (Lay.union (i := 1) (pre := [_]) (post := [_, _]) (t := []) (by decide) rfl (by decide) ?_ (by decide)
      (LayD.typ (Lay.line (LayD.oct (by decide) (by decide) (x := maio) ?_ h2) (Lay.line (LayD.oct (by decide) (by decide) (x := ma) ?_ h3)
        (Lay.opt (sub := [_]) (o := mark) (f := fun p => natBits 2 p.1 ++ Spec.opt (p.2.map fun x => natBits 2 x)) (C := []) rfl (by decide) rfl ?_ ?_ (by simp) Lay.nil)))) Lay.nil)).cast ?_ (by simp)
    · rw [h 0 (by decide)]; show tsc % 256 = _; omega
    · rw [h 1 (by decide)]; rfl
    · rw [Nat.add_assoc, h 2 (by decide)]; show maio % 256 = _; omega
    · rw [Nat.add_assoc, h 3 (by decide)]; show ma % 256 = _; omega
    · rw [Nat.add_assoc, h 4 (by decide)]; exact flag_mod _
    · intro p hp
      obtain ⟨g1, g2⟩ := h4 p hp
      refine (Lay.line (LayD.typ (Lay.line (LayD.oct (by decide) (by decide) (x := p.1) ?_ g1)
        (Lay.opt (sub := [_]) (o := p.2) (f := fun x => natBits 2 x) (C := []) rfl (by decide) rfl ?_ ?_ (by simp) Lay.nil))) Lay.nil).cast (by simp) (by simp)
      · rw [Nat.add_assoc, Nat.add_assoc, h 5 (by decide)]; simp [frmem, hp]; omega
      · rw [Nat.add_assoc, Nat.add_assoc, h 6 (by decide)]; simp only [frmem, hp, Option.bind_some]; exact flag_mod _
      · intro x hx
        have := g2 x hx
        refine (Lay.line (LayD.oct (by decide) (by decide) (x := x) ?_ this) Lay.nil).cast (by simp) (by simp)
        rw [Nat.add_assoc, Nat.add_assoc, h 7 (by decide)]; simp [frmem, hp, hx]; omega
    · simp [Freq.bits, ixBits, natBits]; decide

theorem all_zero {P : Nat → Prop} : ∀ k, k < 0 → P k := fun k h => absurd h (Nat.not_lt_zero k)

theorem all_succ {n : Nat} {P : Nat → Prop} (h0 : P 0) (h : ∀ k, k < n → P (k + 1)) : ∀ k, k < n + 1 → P k := by
  intro k hk
  cases k with
  | zero => exact h0
  | succ k => exact h k (by omega)

/-- Nothing in memory. -/
def nomem : Nat → Nat := fun _ => 0

/-- `PERSISTENCE_LEVEL[4]` in memory. -/
def psmem (p : Persistence) : Nat → Nat
  | 0 => p.a
  | 1 => p.b
  | 2 => p.c
  | 3 => p.d
  | _ => 0

theorem lay_pers {m base off p} (h : ∀ k, k < 4 → m (base + off + k) = psmem p k) (ok : p.Ok) :
    Lay m base [.uintArr off 4 4 4] p.bits [] := by
  obtain ⟨h1, h2, h3, h4⟩ := ok
  refine (Lay.line (LayD.arr (l := [p.a, p.b, p.c, p.d]) (by decide) (Nat.le_refl 4) ?_) Lay.nil).cast ?_ (by simp)
  · intro k x hk
    match k, hk with
    | 0, hk => cases hk; rw [h 0 (by decide)]; exact ⟨Nat.mod_eq_of_lt (show p.a < 256 by omega), h1⟩
    | 1, hk => cases hk; rw [h 1 (by decide)]; exact ⟨Nat.mod_eq_of_lt (show p.b < 256 by omega), h2⟩
    | 2, hk => cases hk; rw [h 2 (by decide)]; exact ⟨Nat.mod_eq_of_lt (show p.c < 256 by omega), h3⟩
    | 3, hk => cases hk; rw [h 3 (by decide)]; exact ⟨Nat.mod_eq_of_lt (show p.d < 256 by omega), h4⟩
  · simp [Persistence.bits]

/-- `Packet_Downlink_Assignment_t` in memory. -/
def daMem (d : DlAssignment) : Mem := fun a =>
  if a = 0 then 2 else if a = 1 then d.page else if a = 4 then flag d.persistence
  else if 8 ≤ a ∧ a < 12 then (d.persistence.elim nomem psmem) (a - 8)
  else if 12 ≤ a ∧ a < 20 then idmem d.station (a - 12)
  else if a = 20 then d.macMode else if a = 21 then d.rlcMode else if a = 22 then d.ctrlAck.toNat
  else if a = 23 then d.slots
  else if 24 ≤ a ∧ a < 29 then tamem d.ta (a - 24)
  else if a = 32 then flag d.p0 else if a = 36 then (d.p0.getD (0, 0, 0)).1
  else if a = 37 then (d.p0.getD (0, 0, 0)).2.1 else if a = 38 then (d.p0.getD (0, 0, 0)).2.2
  else if a = 40 then flag d.freq
  else if 44 ≤ a ∧ a < 72 then (d.freq.elim nomem frmem) (a - 44)
  else if a = 72 then flag d.tfi else if a = 76 then d.tfi.getD 0
  else if a = 80 then flag d.power
  else if 84 ≤ a ∧ a < 101 then (d.power.elim nomem pwmem) (a - 84)
  else if a = 104 then flag d.start
  else if 108 ≤ a ∧ a < 113 then (d.start.elim nomem stmem) (a - 108)
  else 0

theorem lay_da {d : DlAssignment} (ok : d.Ok) :
    Lay (daMem d) 0 t_Packet_Downlink_Assignment.dropLast d.bits
      [0, 12, 16, 17, 18, 19, 22, 23, 72, 76, 104, 108, 110, 111, 112] := by
  unfold t_Packet_Downlink_Assignment
  refine (Lay.line (LayD.oct (x := 2) (by decide) (by decide) rfl (by decide))
    (Lay.line (LayD.oct (x := d.page) (by decide) (by decide) ?_ ok.page)
    (Lay.opt (sub := [_]) (o := d.persistence) (f := Persistence.bits) (C := []) rfl (by decide) rfl (flag_mod _) ?_ (by simp)
    (Lay.line (LayD.typ (lay_id (st := d.station) ?_ ok.station))
    (Lay.line (LayD.fixed (by decide))
    (Lay.line (LayD.oct (x := d.macMode) (by decide) (by decide) ?_ ok.macMode)
    (Lay.line (LayD.oct (x := d.rlcMode) (by decide) (by decide) ?_ ok.rlcMode)
    (Lay.line (LayD.oct (x := d.ctrlAck.toNat) (by decide) (by decide) ?_ ?_)
    (Lay.line (LayD.oct (x := d.slots) (by decide) (by decide) ?_ ok.slots)
    (Lay.line (LayD.typ (lay_ta (t := d.ta) ?_ ok.ta))
    (Lay.opt (sub := [_, _, _]) (o := d.p0) (f := fun p => natBits 4 p.1 ++ natBits 1 p.2.1 ++ natBits 1 p.2.2) (C := []) rfl (by decide) rfl (flag_mod _) ?_ (by simp)
    (Lay.opt (sub := [_]) (o := d.freq) (f := Freq.bits) (C := []) rfl (by decide) rfl (flag_mod _) ?_ (by simp)
    (Lay.opt (sub := [_]) (o := d.tfi) (f := fun x => natBits 5 x) (C := [76]) rfl (by decide) rfl (flag_mod _) ?_ ?_
    (Lay.opt (sub := [_]) (o := d.power) (f := Power.bits) (C := []) rfl (by decide) rfl (flag_mod _) ?_ (by simp)
    (Lay.opt (sub := [_]) (o := d.start) (f := startBits) (C := [108, 110, 111, 112]) rfl (by decide) rfl (flag_mod _) ?_ ?_
    (Lay.opt (sub := [_]) (o := (none : Option Unit)) (f := fun _ => []) (C := []) rfl (by decide) rfl rfl (fun _ h => nomatch h) (by simp)
    (Lay.opt (sub := [_]) (o := (none : Option Unit)) (f := fun _ => []) (C := []) rfl (by decide) rfl rfl (fun _ h => nomatch h) (by simp)
    Lay.nil))))))))))))))))).cast ?_ ?_
  · have := ok.page
    exact Nat.mod_eq_of_lt (show d.page < 256 by omega)
  · intro p hp
    refine lay_pers ?_ (ok.persistence p hp)
    simp only [daMem, hp, Option.elim_some]
    repeat (refine all_succ rfl ?_)
    exact all_zero
  · repeat (refine all_succ rfl ?_)
    exact all_zero
  · have := ok.macMode
    exact Nat.mod_eq_of_lt (show d.macMode < 256 by omega)
  · have := ok.rlcMode
    exact Nat.mod_eq_of_lt (show d.rlcMode < 256 by omega)
  · show d.ctrlAck.toNat % 256 = _
    cases d.ctrlAck <;> rfl
  · cases d.ctrlAck <;> decide
  · exact Nat.mod_eq_of_lt ok.slots
  · repeat (refine all_succ rfl ?_)
    exact all_zero
  · intro p hp
    obtain ⟨h1, h2, h3⟩ := ok.p0 p hp
    refine (Lay.line (LayD.oct (x := p.1) (by decide) (by decide) ?_ h1) (Lay.line (LayD.oct (x := p.2.1) (by decide) (by decide) ?_ h2)
      (Lay.line (LayD.oct (x := p.2.2) (by decide) (by decide) ?_ h3) Lay.nil))).cast (by simp) (by simp)
    · show (d.p0.getD (0, 0, 0)).1 % 256 = _
      rw [hp]; exact Nat.mod_eq_of_lt (show p.1 < 256 by omega)
    · show (d.p0.getD (0, 0, 0)).2.1 % 256 = _
      rw [hp]; exact Nat.mod_eq_of_lt (show p.2.1 < 256 by omega)
    · show (d.p0.getD (0, 0, 0)).2.2 % 256 = _
      rw [hp]; exact Nat.mod_eq_of_lt (show p.2.2 < 256 by omega)
  · intro p hp
    refine (Lay.line (LayD.typ (lay_freq ?_ (ok.freq p hp))) Lay.nil).cast (by simp) (by simp)
    simp only [daMem, hp, Option.elim_some]
    repeat (refine all_succ rfl ?_)
    exact all_zero
  · intro x hx
    have := ok.tfi x hx
    refine (Lay.line (LayD.oct (x := x) (by decide) (by decide) ?_ this) Lay.nil).cast (by simp) (by simp)
    show d.tfi.getD 0 % 256 = x
    rw [hx]; exact Nat.mod_eq_of_lt (show x < 256 by omega)
  · intro hx a ha
    obtain rfl := List.mem_singleton.mp ha
    show d.tfi.getD 0 = 0
    rw [hx]; rfl
  · intro p hp
    refine (Lay.line (LayD.typ (lay_power ?_ (ok.power p hp))) Lay.nil).cast (by simp) (by simp)
    simp only [daMem, hp, Option.elim_some]
    repeat (refine all_succ rfl ?_)
    exact all_zero
  · intro p hp
    refine (Lay.line (LayD.typ (lay_start ?_ (ok.start p hp))) Lay.nil).cast (by simp) (by simp)
    simp only [daMem, hp, Option.elim_some]
    repeat (refine all_succ rfl ?_)
    exact all_zero
  · intro hx a ha
    simp only [daMem, hx, Option.elim_none]
    simp at ha
    rcases ha with rfl | rfl | rfl | rfl <;> rfl
  · simp [DlAssignment.bits, Spec.opt, natBits]
    cases d.ctrlAck <;> decide
  · simp

end Verif.Csn1
