import Verif.Sndcp.V42bis

/-!
# V.42bis: the bits that are sent
-/
namespace Verif.V42

@[simp] theorem bind_ok {α β : Type} (a : α) (f : α → VRes β) : (VRes.ok a >>= f) = f a := rfl

theorem bind_eq_ok {α β : Type} {r : VRes α} {f : α → VRes β} {b : β} (h : (r >>= f) = .ok b) :
    ∃ a, r = .ok a ∧ f a = .ok b := by
  cases r with
  | ok a => exact ⟨a, rfl, h⟩
  | fail => cases h
  | ub u => cases h

/-- The lowest `n` bits, the lowest one first. -/
def codeBits : Nat → Nat → List Bool
  | 0, _ => []
  | n + 1, x => (x % 2 == 1) :: codeBits n (x / 2)

/-- The bits of octets. -/
def octsBits (l : List UInt8) : List Bool := l.flatMap fun o => codeBits 8 o.toNat

theorem codeBits_length (n x : Nat) : (codeBits n x).length = n := by
  induction n generalizing x with
  | zero => rfl
  | succ n ih => simp [codeBits, ih]

theorem codeBits_add (a b x : Nat) : codeBits (a + b) x = codeBits a x ++ codeBits b (x / 2 ^ a) := by
  induction a generalizing x with
  | zero => simp [codeBits]
  | succ a ih =>
    rw [show a + 1 + b = (a + b) + 1 by omega, codeBits, codeBits, ih, List.cons_append, Nat.div_div_eq_div_mul,
      ← Nat.pow_succ']

theorem codeBits_low (a x y : Nat) : codeBits a (x + 2 ^ a * y) = codeBits a x := by
  induction a generalizing x with
  | zero => rfl
  | succ a ih =>
    rw [codeBits, codeBits]
    have h1 : (x + 2 ^ (a + 1) * y) % 2 = x % 2 := by
      rw [Nat.pow_succ', Nat.mul_assoc]; omega
    have h2 : (x + 2 ^ (a + 1) * y) / 2 = x / 2 + 2 ^ a * y := by
      rw [Nat.pow_succ', Nat.mul_assoc]; omega
    rw [h1, h2, ih]

theorem codeBits_mod (a x : Nat) : codeBits a (x % 2 ^ a) = codeBits a x := by
  conv => rhs; rw [← Nat.mod_add_div x (2 ^ a)]
  rw [codeBits_low]

theorem codeBits_inj {a x y : Nat} (h : codeBits a x = codeBits a y) (hx : x < 2 ^ a) (hy : y < 2 ^ a) : x = y := by
  induction a generalizing x y with
  | zero => simp at hx hy; omega
  | succ a ih =>
    rw [codeBits, codeBits] at h
    injection h with h1 h2
    rw [Nat.pow_succ] at hx hy
    have := ih h2 (by omega) (by omega)
    have : x % 2 = y % 2 := by
      rcases Nat.mod_two_eq_zero_or_one x with a1 | a1 <;> rcases Nat.mod_two_eq_zero_or_one y with a2 | a2 <;>
        rw [a1, a2] at h1 <;> first | omega | cases h1
    omega

theorem codeBits_zero (a : Nat) : codeBits a 0 = List.replicate a false := by
  induction a with
  | zero => rfl
  | succ a ih => rw [codeBits, ih]; rfl

theorem or_shift {a x y : Nat} (h : x < 2 ^ a) : x ||| y <<< a = x + 2 ^ a * y := by
  rw [Nat.or_comm, ← Nat.shiftLeft_add_eq_or_of_lt h, Nat.shiftLeft_eq]
  rw [Nat.mul_comm, Nat.add_comm]

theorem codeBits_or {a x : Nat} (b y : Nat) (h : x < 2 ^ a) :
    codeBits (a + b) (x ||| y <<< a) = codeBits a x ++ codeBits b y := by
  rw [or_shift h, codeBits_add, codeBits_low, Nat.add_mul_div_left _ _ (Nat.two_pow_pos a), Nat.div_eq_of_lt h, Nat.zero_add]

theorem or_lt {a b x y : Nat} (h : x < 2 ^ a) (hy : y < 2 ^ b) : x ||| y <<< a < 2 ^ (a + b) := by
  rw [or_shift h, Nat.pow_add]
  calc x + 2 ^ a * y < 2 ^ a + 2 ^ a * y := by omega
    _ = 2 ^ a * (y + 1) := by rw [Nat.mul_add, Nat.mul_one, Nat.add_comm]
    _ ≤ 2 ^ a * 2 ^ b := Nat.mul_le_mul_left _ hy

/-- The bits not sent yet, or not used yet. -/
def Vs.pend (s : Vs) : List Bool := codeBits s.bitCount s.bitBuf

/-- All bits given to the output so far. -/
def Vs.bitsOut (s : Vs) : List Bool := octsBits (s.out ++ s.buf) ++ s.pend

/-- The bit buffer between codewords. -/
structure Vs.Good (s : Vs) : Prop where
  count : s.bitCount < 8
  buf : s.bitBuf < 2 ^ s.bitCount

/-- Nothing but the output changes from `s` to `t`, and these bits are added to it. -/
structure Emits (s t : Vs) (l : List Bool) : Prop where
  eq : t = { s with buf := t.buf, out := t.out, bitBuf := t.bitBuf, bitCount := t.bitCount }
  bits : t.bitsOut = s.bitsOut ++ l
  good : t.Good

theorem octsBits_append (a b : List UInt8) : octsBits (a ++ b) = octsBits a ++ octsBits b := by
  unfold octsBits; rw [List.flatMap_append]

theorem octsBits_cons (a : UInt8) (b : List UInt8) : octsBits (a :: b) = codeBits 8 a.toNat ++ octsBits b := rfl

theorem octsBits_length (l : List UInt8) : (octsBits l).length = 8 * l.length := by
  induction l with
  | nil => rfl
  | cons a l ih => rw [octsBits_cons, List.length_append, codeBits_length, ih, List.length_cons]; omega

theorem pushOctet_eq (s : Vs) (o : UInt8) :
    (s.pushOctet o) = { s with buf := (s.pushOctet o).buf, out := (s.pushOctet o).out } ∧
    (s.pushOctet o).out ++ (s.pushOctet o).buf = s.out ++ s.buf ++ [o] := by
  unfold Vs.pushOctet
  split
  · exact ⟨rfl, by simp⟩
  · exact ⟨rfl, by simp⟩

theorem pushLoop_eq (n : Nat) (s : Vs) (l : List UInt8) :
    (pushLoop n s l) = { s with buf := (pushLoop n s l).buf, out := (pushLoop n s l).out } ∧
    (pushLoop n s l).out ++ (pushLoop n s l).buf = s.out ++ s.buf ++ l := by
  induction n generalizing s l with
  | zero => exact ⟨rfl, by simp [pushLoop]⟩
  | succ n ih =>
    rw [pushLoop]
    split
    · have h := ih { s with buf := [], out := s.out ++ (s.buf ++ l.take (s.maxOut - s.buf.length)) }
        (l.drop (s.maxOut - s.buf.length))
      refine ⟨h.1, h.2.trans ?_⟩
      simp
    · exact ⟨rfl, by simp⟩

theorem pushOctets_eq (s : Vs) (l : List UInt8) :
    (s.pushOctets l) = { s with buf := (s.pushOctets l).buf, out := (s.pushOctets l).out } ∧
    (s.pushOctets l).out ++ (s.pushOctets l).buf = s.out ++ s.buf ++ l := pushLoop_eq _ s l

/-- The whole octets of the bit buffer are sent. -/
theorem emit_eq (n : Nat) (s : Vs) (hn : s.bitCount < 8 * n + 8) (hb : s.bitBuf < 2 ^ s.bitCount) :
    (emit n s) = { s with buf := (emit n s).buf, out := (emit n s).out, bitBuf := (emit n s).bitBuf, bitCount := (emit n s).bitCount } ∧
    (emit n s).bitsOut = s.bitsOut ∧ (emit n s).Good ∧ (emit n s).bitCount = s.bitCount % 8 := by
  induction n generalizing s with
  | zero => exact ⟨rfl, rfl, ⟨by rw [emit]; omega, hb⟩, by rw [emit]; omega⟩
  | succ n ih =>
    rw [emit]
    split
    · rename_i h8
      have hp := pushOctet_eq s (UInt8.ofNat (s.bitBuf % 256))
      have hl : s.bitBuf >>> 8 < 2 ^ (s.bitCount - 8) := by
        rw [Nat.shiftRight_eq_div_pow]
        apply Nat.div_lt_of_lt_mul
        rw [← Nat.pow_add, show 8 + (s.bitCount - 8) = s.bitCount by omega]
        exact hb
      have h := ih { (s.pushOctet (UInt8.ofNat (s.bitBuf % 256))) with bitBuf := s.bitBuf >>> 8, bitCount := s.bitCount - 8 }
        (by dsimp only; omega) hl
      refine ⟨?_, ?_, h.2.2.1, ?_⟩
      · refine h.1.trans ?_
        rw [hp.1]
      · refine h.2.1.trans ?_
        unfold Vs.bitsOut Vs.pend
        dsimp only
        rw [hp.2, octsBits_append, List.append_assoc]
        congr 1
        rw [octsBits_cons]
        have e : (UInt8.ofNat (s.bitBuf % 256)).toNat = s.bitBuf % 2 ^ 8 := by
          rw [UInt8.toNat_ofNat']; omega
        rw [e, codeBits_mod, Nat.shiftRight_eq_div_pow]
        conv => rhs; rw [show s.bitCount = 8 + (s.bitCount - 8) by omega, codeBits_add]
        rw [show octsBits [] = [] from rfl, List.append_nil]
      · refine h.2.2.2.trans ?_
        dsimp only
        omega
    · rename_i h8
      exact ⟨rfl, rfl, ⟨by omega, hb⟩, by omega⟩

theorem pushCode_emits {s : Vs} (g : s.Good) {code : Nat} (hc : code < 2 ^ s.c2) (hw : s.c2 ≤ 24) :
    Emits s (s.pushCode code) (codeBits s.c2 code) := by
  have h32 : code <<< s.bitCount < 4294967296 := by
    rw [Nat.shiftLeft_eq]
    calc code * 2 ^ s.bitCount < 2 ^ s.c2 * 2 ^ s.bitCount := Nat.mul_lt_mul_of_pos_right hc (Nat.two_pow_pos _)
      _ = 2 ^ (s.c2 + s.bitCount) := (Nat.pow_add ..).symm
      _ ≤ 2 ^ 32 := Nat.pow_le_pow_right (by decide) (by have := g.count; omega)
  unfold Vs.pushCode
  rw [Nat.mod_eq_of_lt h32]
  have h := emit_eq (s.bitCount + s.c2)
    { s with bitBuf := s.bitBuf ||| (code <<< s.bitCount), bitCount := s.bitCount + s.c2 }
    (by dsimp only; omega) (by dsimp only; exact or_lt g.buf hc)
  refine ⟨h.1, h.2.1.trans ?_, h.2.2.1⟩
  unfold Vs.bitsOut Vs.pend
  dsimp only
  rw [codeBits_or _ _ g.buf, List.append_assoc]

theorem align_emits {s : Vs} (g : s.Good) :
    Emits s s.align (List.replicate ((8 - s.bitCount) % 8) false) ∧ s.align.bitCount = 0 := by
  unfold Vs.align
  split
  · rename_i h
    have e : s.bitCount + (8 - s.bitCount % 8) = 8 := by have := g.count; omega
    have hb : s.bitBuf < 2 ^ 8 := Nat.lt_of_lt_of_le g.buf (Nat.pow_le_pow_right (by decide) (Nat.le_of_lt g.count))
    have h1 := emit_eq (s.bitCount + 8) { s with bitCount := s.bitCount + (8 - s.bitCount % 8) }
      (by dsimp only; omega) (by dsimp only; rw [e]; exact hb)
    refine ⟨⟨h1.1, h1.2.1.trans ?_, h1.2.2.1⟩, h1.2.2.2.trans (by dsimp only; omega)⟩
    unfold Vs.bitsOut Vs.pend
    dsimp only
    rw [List.append_assoc]
    congr 1
    have hm : (8 - s.bitCount) % 8 = 8 - s.bitCount := by have := g.count; omega
    rw [hm, e, show 8 = s.bitCount + (8 - s.bitCount) by have := g.count; omega, codeBits_add,
      Nat.div_eq_of_lt g.buf, codeBits_zero]
    simp
  · rename_i h
    have e : s.bitCount = 0 := by have := g.count; omega
    refine ⟨⟨rfl, ?_, g⟩, e⟩
    rw [e]
    simp

theorem Emits.trans {s t u : Vs} {l k : List Bool} (h : Emits s t l) (h' : Emits t u k) : Emits s u (l ++ k) := by
  refine ⟨?_, ?_, h'.good⟩
  · rw [h'.eq, h.eq]
  · rw [h'.bits, h.bits, List.append_assoc]

theorem pushOctet_emits {s : Vs} (h0 : s.bitCount = 0) (g : s.Good) (o : UInt8) :
    Emits s (s.pushOctet o) (codeBits 8 o.toNat) ∧ (s.pushOctet o).bitCount = 0 := by
  have hp := pushOctet_eq s o
  have e0 : (s.pushOctet o).bitCount = 0 := by rw [hp.1]; exact h0
  refine ⟨⟨?_, ?_, ?_⟩, e0⟩
  · rw [hp.1]
  · unfold Vs.bitsOut Vs.pend
    rw [e0, h0, hp.2, octsBits_append]
    simp [codeBits, octsBits]
  · refine ⟨by omega, ?_⟩
    rw [e0, hp.1]
    have := g.buf
    rw [h0] at this
    exact this

/-! ## Reading -/

/-- Octets are read until there is a codeword. -/
theorem fill_ok {c2 : Nat} (hc : c2 ≤ 12) : ∀ (l : List UInt8) (s : Vs), s.c2 = c2 → s.bitBuf < 2 ^ s.bitCount →
    s.bitCount < c2 + 8 → ∃ t l', fill s l = .ok (t, l') ∧ t = { s with bitBuf := t.bitBuf, bitCount := t.bitCount } ∧
      t.pend ++ octsBits l' = s.pend ++ octsBits l ∧ (c2 ≤ t.bitCount ∨ l' = []) ∧ t.bitBuf < 2 ^ t.bitCount ∧
      t.bitCount < c2 + 8 ∧ l'.length ≤ l.length ∧ (l ≠ [] → s.bitCount < c2 → l'.length < l.length)
  | [], s, _, hb, hw => ⟨s, [], rfl, rfl, rfl, .inr rfl, hb, hw, Nat.le_refl _, fun h => absurd rfl h⟩
  | o :: l, s, h2, hb, hw => by
    rw [fill]
    by_cases hlt : s.bitCount < s.c2
    · rw [if_pos hlt]
      have ho : o.toNat < 2 ^ 8 := o.toNat_lt
      have hs : o.toNat <<< s.bitCount < 2147483648 := by
        rw [Nat.shiftLeft_eq]
        calc o.toNat * 2 ^ s.bitCount < 2 ^ 8 * 2 ^ s.bitCount := Nat.mul_lt_mul_of_pos_right ho (Nat.two_pow_pos _)
          _ = 2 ^ (8 + s.bitCount) := (Nat.pow_add ..).symm
          _ ≤ 2 ^ 31 := Nat.pow_le_pow_right (by decide) (by omega)
      rw [if_neg (by omega)]
      obtain ⟨t, l', e, h1, hp, hd, hb', hw', hl, -⟩ := fill_ok hc l
        { s with bitBuf := s.bitBuf ||| o.toNat <<< s.bitCount, bitCount := s.bitCount + 8 } h2
        (by dsimp only; exact or_lt hb ho) (by dsimp only; omega)
      refine ⟨t, l', e, h1, ?_, hd, hb', hw', by simp only [List.length_cons]; omega, fun _ _ => by
        simp only [List.length_cons]; omega⟩
      rw [hp, octsBits_cons, ← List.append_assoc]
      congr 1
      unfold Vs.pend
      dsimp only
      rw [codeBits_or _ _ hb]
    · rw [if_neg hlt]
      exact ⟨s, o :: l, rfl, rfl, rfl, .inl (by omega), hb, hw, Nat.le_refl _, fun _ h => absurd h (by omega)⟩

/-- The decompressor gets to `r`, taking an octet at least in each round. -/
def DecTo (d : Vs) (l : List UInt8) (r : Vs) : Prop := ∃ n, n ≤ l.length ∧ decLoop n d l = .ok r

theorem decTo_nil (d : Vs) : DecTo d [] d := ⟨0, Nat.le_refl _, rfl⟩

theorem decTo_step {d d' r : Vs} {o : UInt8} {l l' : List UInt8}
    (h : (if d.transparent then d.plainStep o l else d.codeStep (o :: l)) = .ok (d', l'))
    (hl : l'.length ≤ l.length) (hr : DecTo d' l' r) : DecTo d (o :: l) r := by
  obtain ⟨n, hn, e⟩ := hr
  refine ⟨n + 1, by simp only [List.length_cons]; omega, ?_⟩
  rw [decLoop]
  split at h
  · rw [if_pos (by assumption), h]; exact e
  · rw [if_neg (by assumption), h]; exact e

theorem decLoop_mono {n m : Nat} (h : n ≤ m) {d r : Vs} {l : List UInt8} (e : decLoop n d l = .ok r) :
    decLoop m d l = .ok r := by
  induction n generalizing m d l with
  | zero =>
    cases l with
    | nil => cases m <;> exact e
    | cons o l => cases e
  | succ n ih =>
    cases l with
    | nil => cases m <;> exact e
    | cons o l =>
      obtain ⟨m, rfl⟩ : ∃ k, m = k + 1 := ⟨m - 1, by omega⟩
      rw [decLoop] at e ⊢
      split at e
      · rw [if_pos (by assumption)]
        obtain ⟨⟨d', l'⟩, h1, h2⟩ := bind_eq_ok e
        rw [h1]
        exact ih (by omega) h2
      · rw [if_neg (by assumption)]
        obtain ⟨⟨d', l'⟩, h1, h2⟩ := bind_eq_ok e
        rw [h1]
        exact ih (by omega) h2

theorem decompress_of {d r : Vs} {l : List UInt8} (h : DecTo d l r) : d.decompress l = .ok r := by
  obtain ⟨n, hn, e⟩ := h
  exact decLoop_mono (by omega) e

/-- A codeword is read. -/
theorem dec_code {d : Vs} {l : List UInt8} {code : Nat} {rest : List Bool} (hm : d.transparent = false) (g : d.Good)
    (h9 : 9 ≤ d.c2) (h12 : d.c2 ≤ 12) (hc : code < 2 ^ d.c2) (hs : d.pend ++ octsBits l = codeBits d.c2 code ++ rest) :
    ∃ (d1 : Vs) (l' : List UInt8), d1 = { d with bitBuf := d1.bitBuf, bitCount := d1.bitCount } ∧ d1.Good ∧ d1.pend ++ octsBits l' = rest ∧
      l'.length < l.length ∧ ∀ d2, (if code < 3 then d1.control code else d1.codeword code) = .ok d2 →
        ∀ r, DecTo d2 l' r → DecTo d l r := by
  obtain ⟨t, l', e, h1, hp, hd, hb, hw, hl, hl'⟩ := fill_ok h12 l d rfl g.buf (by have := g.count; omega)
  obtain ⟨bb, bc, rfl⟩ : ∃ bb bc, t = { d with bitBuf := bb, bitCount := bc } := ⟨_, _, h1⟩
  dsimp only at hp hd hb hw
  have hlen := congrArg List.length hs
  simp only [List.length_append, codeBits_length, Vs.pend, octsBits_length] at hlen
  have hne : l ≠ [] := by
    rintro rfl
    have := g.count
    simp only [List.length_nil] at hlen
    omega
  have hlt : l'.length < l.length := hl' hne (by have := g.count; omega)
  have ht : d.c2 ≤ bc := by
    rcases hd with hd | rfl
    · exact hd
    · have h2 := congrArg List.length hp
      simp only [List.length_append, codeBits_length, Vs.pend, octsBits_length, List.length_nil] at h2
      omega
  have hsplit : codeBits bc bb = codeBits d.c2 (bb % 2 ^ d.c2) ++ codeBits (bc - d.c2) (bb / 2 ^ d.c2) := by
    rw [codeBits_mod, ← codeBits_add, show d.c2 + (bc - d.c2) = bc by omega]
  rw [← hp, Vs.pend, hsplit, List.append_assoc] at hs
  obtain ⟨e1, e2⟩ := List.append_inj hs (by rw [codeBits_length, codeBits_length])
  have ecode : bb % 2 ^ d.c2 = code := codeBits_inj e1 (Nat.mod_lt _ (Nat.two_pow_pos _)) hc
  refine ⟨{ d with bitBuf := bb >>> d.c2, bitCount := bc - d.c2 }, l', ?_, ⟨?_, ?_⟩, ?_, hlt, ?_⟩
  · rfl
  · dsimp only; omega
  · dsimp only
    rw [Nat.shiftRight_eq_div_pow]
    apply Nat.div_lt_of_lt_mul
    rw [← Nat.pow_add, show d.c2 + (bc - d.c2) = bc by omega]
    exact hb
  · unfold Vs.pend
    dsimp only
    rw [Nat.shiftRight_eq_div_pow]
    exact e2
  · intro d2 h2 r hr
    cases l with
    | nil => exact absurd rfl hne
    | cons o l =>
      refine decTo_step (d' := d2) (l' := l') ?_ (by simp only [List.length_cons] at hlt; omega) hr
      rw [hm, if_neg (by decide)]
      unfold Vs.codeStep
      rw [e, bind_ok]
      dsimp only
      rw [if_neg (by omega), if_neg (by omega)]
      have h16 : code % 65536 = code := Nat.mod_eq_of_lt (Nat.lt_of_lt_of_le hc
        (Nat.pow_le_pow_right (by decide) (by omega : d.c2 ≤ 16)))
      rw [show bb % 2 ^ d.c2 % 65536 = code by rw [ecode, h16]]
      split at h2
      · rw [if_pos (by assumption), h2]; rfl
      · rw [if_neg (by assumption), h2]; rfl

end Verif.V42
