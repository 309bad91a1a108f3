import Verif.Sndcp.V42Dict

/-!
# V.42bis: what is sent for a string, and how it is read
-/
namespace Verif.V42

/-- If the decompressor gets to `r` from the second place it does from the first. -/
def Goes (d : Vs) (l : List UInt8) (d' : Vs) (l' : List UInt8) : Prop := ∀ r, DecTo d' l' r → DecTo d l r

theorem Goes.refl (d : Vs) (l : List UInt8) : Goes d l d l := fun _ h => h
theorem Goes.trans {a b c : Vs} {k l m : List UInt8} (h : Goes a k b l) (h' : Goes b l c m) : Goes a k c m :=
  fun r hr => h r (h' r hr)

/-- All that was given to the decompressor as data so far. -/
def Vs.total (d : Vs) : List UInt8 := d.out ++ d.buf ++ d.str

/-- Octets with the escape code marked. -/
def escd : UInt8 → List UInt8 → List UInt8
  | _, [] => []
  | e, o :: l => if o = e then o :: 1 :: escd (e + 51) l else o :: escd e l

theorem escd_length (e : UInt8) (l : List UInt8) : (escd e l).length ≤ 2 * l.length := by
  induction l generalizing e with
  | nil => simp [escd]
  | cons o l ih =>
    rw [escd]
    split
    · have := ih (e + 51); simp only [List.length_cons]; omega
    · have := ih e; simp only [List.length_cons]; omega

theorem octsBits_prefix {k l : List UInt8} {rest : List Bool} (h : octsBits l = octsBits k ++ rest) :
    ∃ l', l = k ++ l' ∧ octsBits l' = rest := by
  induction k generalizing l with
  | nil => exact ⟨l, rfl, h⟩
  | cons a k ih =>
    cases l with
    | nil =>
      rw [octsBits_cons, codeBits] at h
      cases h
    | cons b l =>
      rw [octsBits_cons, octsBits_cons, List.append_assoc] at h
      obtain ⟨h1, h2⟩ := List.append_inj h (by rw [codeBits_length, codeBits_length])
      have hab : b = a := UInt8.toNat_inj.mp (codeBits_inj h1 b.toNat_lt a.toNat_lt)
      obtain ⟨l', h3, h4⟩ := ih h2
      exact ⟨l', by rw [h3, hab]; rfl, h4⟩

theorem sendPlain_ok (s : Vs) (l : List UInt8) (h0 : s.bitCount = 0) (g : s.Good) :
    ∃ b u, sendPlain s l = { s with esc := escAfter s.esc l, buf := b, out := u } ∧
      u ++ b = s.out ++ s.buf ++ escd s.esc l := by
  induction l generalizing s with
  | nil => exact ⟨_, _, rfl, by simp [escd]⟩
  | cons o l ih =>
    rw [sendPlain]
    by_cases ho : o = s.esc
    · rw [if_pos ho]
      have p1 := pushOctet_eq s o
      have p2 := pushOctet_eq (s.pushOctet o) 1
      generalize hs : s.pushOctet o = s1 at p1 p2
      obtain ⟨b1, u1, rfl⟩ : ∃ b1 u1, s1 = { s with buf := b1, out := u1 } := ⟨_, _, p1.1⟩
      generalize hs2 : Vs.pushOctet { s with buf := b1, out := u1 } 1 = s2 at p2
      obtain ⟨b2, u2, rfl⟩ : ∃ b2 u2, s2 = { s with buf := b2, out := u2 } := ⟨_, _, p2.1⟩
      obtain ⟨b, u, e1, e2⟩ := ih { s with buf := b2, out := u2, esc := s.esc + 51 } h0 ⟨g.count, g.buf⟩
      dsimp only at e1 e2 p1 p2
      refine ⟨b, u, ?_, ?_⟩
      · rw [e1, escAfter, if_pos ho]
      · rw [e2, p2.2, p1.2, escd, if_pos ho]
        simp
    · rw [if_neg ho]
      have p1 := pushOctet_eq s o
      generalize hs : s.pushOctet o = s1 at p1
      obtain ⟨b1, u1, rfl⟩ : ∃ b1 u1, s1 = { s with buf := b1, out := u1 } := ⟨_, _, p1.1⟩
      obtain ⟨b, u, e1, e2⟩ := ih { s with buf := b1, out := u1 } h0 ⟨g.count, g.buf⟩
      dsimp only at e1 e2 p1
      refine ⟨b, u, ?_, ?_⟩
      · rw [e1, escAfter, if_neg ho]
      · rw [e2, p1.2, escd, if_neg ho]
        simp

/-- The width is raised as far as the codeword needs, and the other end follows. -/
theorem stepUp_ok {code : Nat} (hc : code < 4096) : ∀ (n : Nat) (s : Vs), s.Good → s.c3 = 2 ^ s.c2 → 9 ≤ s.c2 → s.c2 ≤ 12 →
    12 - s.c2 < n → ∃ w b u bb bc l, stepUp n s code = .ok { s with c2 := w, c3 := 2 ^ w, buf := b, out := u, bitBuf := bb, bitCount := bc } ∧
      Vs.Good { s with c2 := w, c3 := 2 ^ w, buf := b, out := u, bitBuf := bb, bitCount := bc } ∧
      Vs.bitsOut { s with c2 := w, c3 := 2 ^ w, buf := b, out := u, bitBuf := bb, bitCount := bc } = s.bitsOut ++ l ∧
      s.c2 ≤ w ∧ w ≤ 12 ∧ code < 2 ^ w ∧ l.length ≤ 12 * (w - s.c2) ∧
      ∀ (d : Vs) (k : List UInt8) (rest : List Bool), d.transparent = false → d.Good → d.c2 = s.c2 → d.c3 = s.c3 → 512 ≤ d.n2 →
        d.pend ++ octsBits k = l ++ rest → ∃ db dc k', Vs.Good { d with c2 := w, c3 := 2 ^ w, bitBuf := db, bitCount := dc } ∧
          Vs.pend { d with c2 := w, c3 := 2 ^ w, bitBuf := db, bitCount := dc } ++ octsBits k' = rest ∧
          Goes d k { d with c2 := w, c3 := 2 ^ w, bitBuf := db, bitCount := dc } k'
  | 0, _, _, _, _, _, h => absurd h (Nat.not_lt_zero _)
  | n + 1, s, g, h3, h9, h12, hn => by
    rw [stepUp]
    by_cases hlt : s.c3 ≤ code
    · rw [if_pos hlt]
      have h11 : s.c2 < 12 := by
        rcases Nat.lt_or_ge s.c2 12 with h | h
        · exact h
        · have : (2 : Nat) ^ 12 ≤ 2 ^ s.c2 := Nat.pow_le_pow_right (by decide) h
          omega
      have h2 : 2 < 2 ^ s.c2 := Nat.lt_of_lt_of_le (by decide : 2 < 2 ^ 9) (Nat.pow_le_pow_right (by decide) h9)
      have em := pushCode_emits g h2 (by omega)
      have h64 : s.c3 * 2 % 65536 = 2 ^ (s.c2 + 1) := by
        rw [h3, ← Nat.pow_succ]
        exact Nat.mod_eq_of_lt (Nat.lt_of_le_of_lt (Nat.pow_le_pow_right (by decide) (by omega : s.c2 + 1 ≤ 15)) (by decide))
      rw [h64]
      generalize s.pushCode 2 = t at em
      obtain ⟨b1, u1, bb1, bc1, rfl⟩ : ∃ b1 u1 bb1 bc1, t = { s with buf := b1, out := u1, bitBuf := bb1, bitCount := bc1 } :=
        ⟨_, _, _, _, em.eq⟩
      obtain ⟨w, b, u, bb, bc, l, e1, e2, e3, e4, e5, e6, e7, e8⟩ := stepUp_ok hc n
        { s with c2 := s.c2 + 1, c3 := 2 ^ (s.c2 + 1), buf := b1, out := u1, bitBuf := bb1, bitCount := bc1 }
        ⟨em.good.count, em.good.buf⟩ rfl (by dsimp only; omega) (by dsimp only; omega) (by dsimp only; omega)
      dsimp only at e1 e2 e3 e4 e7 e8
      refine ⟨w, b, u, bb, bc, codeBits s.c2 2 ++ l, e1, e2, ?_, by omega, e5, e6, ?_, ?_⟩
      · rw [e3, ← List.append_assoc]
        congr 1
        exact em.bits
      · rw [List.length_append, codeBits_length]; omega
      · intro d k rest m1 m2 m3 m4 m5 m6
        rw [List.append_assoc] at m6
        rw [← m3] at h2 h9 h12 m6
        obtain ⟨d1, k1, f1, f2, f3, f4, f5⟩ := dec_code m1 m2 h9 h12 h2 m6
        obtain ⟨db1, dc1, rfl⟩ : ∃ db1 dc1, d1 = { d with bitBuf := db1, bitCount := dc1 } := ⟨_, _, f1⟩
        have hcl : Vs.control { d with bitBuf := db1, bitCount := dc1 } 2 =
            .ok { d with c2 := s.c2 + 1, c3 := 2 ^ (s.c2 + 1), bitBuf := db1, bitCount := dc1 } := by
          unfold Vs.control
          rw [if_neg (by decide), if_neg (by decide)]
          dsimp only
          rw [if_neg, m3, m4, h64]
          rw [Nat.shiftRight_eq_div_pow]
          omega
        obtain ⟨db, dc, k', j1, j2, j3⟩ := e8
          { d with c2 := s.c2 + 1, c3 := 2 ^ (s.c2 + 1), bitBuf := db1, bitCount := dc1 } k1 rest m1 ⟨f2.count, f2.buf⟩ rfl rfl m5 f3
        refine ⟨db, dc, k', j1, j2, Goes.trans (f5 _ ?_) j3⟩
        rw [if_pos (by decide), hcl]
    · rw [if_neg hlt]
      refine ⟨s.c2, s.buf, s.out, s.bitBuf, s.bitCount, [], ?_, ⟨g.count, g.buf⟩, ?_, Nat.le_refl _, h12, by omega, by simp, ?_⟩
      · rw [← h3]
      · rw [List.append_nil]; rfl
      · intro d k rest m1 m2 m3 m4 m5 m6
        refine ⟨d.bitBuf, d.bitCount, k, ⟨m2.count, m2.buf⟩, m6, ?_⟩
        rw [← h3, ← m3, ← m4]
        exact Goes.refl _ _

/-- A string is sent. -/
theorem sendData_ok {s : Vs} {code : Nat} (hc : code < 4096) (g : s.Good) (h3 : s.c3 = 2 ^ s.c2) (h9 : 9 ≤ s.c2)
    (h12 : s.c2 ≤ 12) (h0 : s.transparent = true → s.bitCount = 0) :
    ∃ pf w b u bb bc l, s.sendData code = .ok { s with perf := pf, str := [], flushed := 0, esc := escAfter s.esc s.str, c2 := w, c3 := 2 ^ w, buf := b, out := u, bitBuf := bb, bitCount := bc } ∧
      Vs.Good { s with perf := pf, str := [], flushed := 0, esc := escAfter s.esc s.str, c2 := w, c3 := 2 ^ w, buf := b, out := u, bitBuf := bb, bitCount := bc } ∧
      Vs.bitsOut { s with perf := pf, str := [], flushed := 0, esc := escAfter s.esc s.str, c2 := w, c3 := 2 ^ w, buf := b, out := u, bitBuf := bb, bitCount := bc } = s.bitsOut ++ l ∧
      s.c2 ≤ w ∧ w ≤ 12 ∧ l.length ≤ 16 * s.str.length + 48 ∧ (s.transparent = false → l.length ≤ 48) ∧
      (s.transparent = true → bc = 0 ∧ w = s.c2 ∧ l = octsBits (escd s.esc s.str)) ∧
      (s.transparent = false → ∀ (d : Vs) (k : List UInt8) (rest : List Bool), d.transparent = false → d.Good → d.c2 = s.c2 →
        d.c3 = s.c3 → 512 ≤ d.n2 → 3 ≤ code → d.pend ++ octsBits k = l ++ rest →
        ∃ db dc k', Vs.Good { d with c2 := w, c3 := 2 ^ w, bitBuf := db, bitCount := dc } ∧
          Vs.pend { d with c2 := w, c3 := 2 ^ w, bitBuf := db, bitCount := dc } ++ octsBits k' = rest ∧
          ∀ d', Vs.codeword { d with c2 := w, c3 := 2 ^ w, bitBuf := db, bitCount := dc } code = .ok d' → Goes d k d' k') := by
  unfold Vs.sendData
  by_cases hm : s.transparent = true
  · rw [if_pos hm]
    obtain ⟨b, u, e1, e2⟩ := sendPlain_ok { s with perf := perfAfter s.perf s.c2 s.str.length } s.str (h0 hm) ⟨g.count, g.buf⟩
    dsimp only at e1 e2
    refine ⟨perfAfter s.perf s.c2 s.str.length, s.c2, b, u, s.bitBuf, s.bitCount, octsBits (escd s.esc s.str), ?_,
      ⟨g.count, g.buf⟩, ?_, Nat.le_refl _, h12, ?_, fun h => (by rw [hm] at h; cases h), fun _ => ⟨h0 hm, rfl, rfl⟩,
      fun h => (by rw [hm] at h; cases h)⟩
    · rw [e1, ← h3]
    · unfold Vs.bitsOut Vs.pend
      dsimp only
      rw [e2, h0 hm, octsBits_append]
      simp [codeBits]
    · rw [octsBits_length]
      have := escd_length s.esc s.str
      omega
  · rw [if_neg hm]
    obtain ⟨w, b, u, bb, bc, l, e1, e2, e3, e4, e5, e6, e7, e8⟩ := stepUp_ok hc 64
      { s with perf := perfAfter s.perf s.c2 s.str.length, esc := escAfter s.esc s.str } ⟨g.count, g.buf⟩ h3 h9 h12
      (by dsimp only; omega)
    dsimp only at e1 e2 e3 e4 e7 e8
    rw [e1, bind_ok]
    have em := pushCode_emits e2 (code := code) e6 (by dsimp only; omega)
    generalize Vs.pushCode _ code = t at em
    obtain ⟨b1, u1, bb1, bc1, rfl⟩ : ∃ b1 u1 bb1 bc1, t = { s with perf := perfAfter s.perf s.c2 s.str.length, esc := escAfter s.esc s.str, c2 := w, c3 := 2 ^ w, buf := b1, out := u1, bitBuf := bb1, bitCount := bc1 } :=
      ⟨_, _, _, _, em.eq⟩
    refine ⟨perfAfter s.perf s.c2 s.str.length, w, b1, u1, bb1, bc1, l ++ codeBits w code, rfl, ⟨em.good.count, em.good.buf⟩,
      ?_, e4, e5, ?_, ?_, fun h => absurd h hm, fun _ => ?_⟩
    · rw [← List.append_assoc]
      refine Eq.trans ?_ (em.bits.trans ?_)
      · rfl
      · rw [e3]
        rfl
    · rw [List.length_append, codeBits_length]; omega
    · intro _; rw [List.length_append, codeBits_length]; omega
    · intro d k rest m1 m2 m3 m4 m5 m6 m7
      rw [List.append_assoc] at m7
      obtain ⟨db, dc, k', j1, j2, j3⟩ := e8 d k _ m1 m2 m3 m4 m5 m7
      obtain ⟨d1, k1, f1, f2, f3, f4, f5⟩ := dec_code (d := { d with c2 := w, c3 := 2 ^ w, bitBuf := db, bitCount := dc }) m1 j1
        (by dsimp only; omega) e5 e6 j2
      obtain ⟨db1, dc1, rfl⟩ : ∃ db1 dc1, d1 = { d with c2 := w, c3 := 2 ^ w, bitBuf := db1, bitCount := dc1 } := ⟨_, _, f1⟩
      refine ⟨db1, dc1, k1, f2, f3, fun d' hd' => j3.trans (f5 d' ?_)⟩
      rw [if_neg (by omega)]
      exact hd'

/-! ## Reading plain octets -/

theorem dec_plain {d d' : Vs} {o : UInt8} {l : List UInt8} (hm : d.transparent = true) (he : d.escaped = false)
    (h : Vs.plainOctet { d with escaped := false, esc := escAfter d.esc [o] } o = .ok (d', true)) :
    Goes d (escd d.esc [o] ++ l) d' l := by
  intro r hr
  rw [escd]
  rw [escAfter, escAfter] at h
  by_cases ho : o = d.esc
  · rw [if_pos ho]
    rw [if_pos ho] at h
    refine decTo_step (d' := { d with escaped := true }) (l' := 1 :: l) ?_ (Nat.le_refl _) ?_
    · rw [if_pos hm]
      unfold Vs.plainStep
      rw [if_neg (by rw [he]; decide), if_pos ho]
      rfl
    · refine decTo_step (d' := d') (l' := l) ?_ (Nat.le_refl _) hr
      dsimp only
      rw [if_pos hm]
      unfold Vs.plainStep
      dsimp only
      rw [if_pos rfl, if_neg (by decide), if_pos rfl, ← ho]
      rw [← ho] at h
      rw [h]
      rfl
  · rw [if_neg ho]
    rw [if_neg ho] at h
    refine decTo_step (d' := d') (l' := l) ?_ (Nat.le_refl _) hr
    rw [if_pos hm]
    unfold Vs.plainStep
    rw [if_neg (by rw [he]; decide), if_neg ho]
    have : d = { d with escaped := false, esc := d.esc } := by rw [← he]
    rw [← this] at h
    rw [h]
    rfl

theorem update_zero {s : Vs} (h : s.updateAt = 0) (o : UInt8) : s.update o = .ok s := by
  unfold Vs.update; rw [if_neg (by omega)]

/-- An octet that goes on in the dictionary. -/
theorem plainRound_go {d : Vs} {o : UInt8} {c : Nat} (hu : d.updateAt = 0) (hc : matchOctet d.dict d.lastMatched o = .ok c)
    (h0 : c ≠ 0) (hl : c ≠ d.lastAdded) (hf : d.flushed = 0) (h7 : d.n7 ≤ 250) (hs : d.str.length + 1 < d.n7) :
    d.plainRound o = .ok ({ d with lastMatched := c, str := d.str ++ [o] }, true) := by
  unfold Vs.plainRound
  rw [update_zero hu, bind_ok, hc, bind_ok, if_neg h0, if_neg hl, if_neg (by omega), hf, if_neg (by omega)]

/-- An octet that ends a string of full length. -/
theorem plainRound_full {d : Vs} {o : UInt8} {c : Nat} (hu : d.updateAt = 0) (hc : matchOctet d.dict d.lastMatched o = .ok c)
    (h0 : c ≠ 0) (hl : c ≠ d.lastAdded) (hf : d.flushed = 0) (h7 : d.n7 ≤ 250) (hs : d.str.length + 1 = d.n7) :
    ∃ b u, d.plainRound o = .ok ({ d with lastMatched := 0, str := [], buf := b, out := u }, true) ∧
      u ++ b = d.out ++ d.buf ++ d.str ++ [o] := by
  unfold Vs.plainRound
  rw [update_zero hu, bind_ok, hc, bind_ok, if_neg h0, if_neg hl, if_neg (by omega), if_pos (by omega)]
  unfold Vs.sendString
  dsimp only
  have p := pushOctets_eq { d with lastMatched := c, str := d.str ++ [o] } (d.str ++ [o])
  generalize Vs.pushOctets _ (d.str ++ [o]) = t at p
  obtain ⟨b, u, rfl⟩ : ∃ b u, t = { d with lastMatched := c, str := d.str ++ [o], buf := b, out := u } := ⟨_, _, p.1⟩
  refine ⟨b, u, ?_, ?_⟩
  · rw [hf]
  · rw [p.2]; simp

theorem plainOctet_of {d d' : Vs} {o : UInt8} (h : d.plainRound o = .ok (d', true)) : d.plainOctet o = .ok (d', true) := by
  unfold Vs.plainOctet; rw [h, bind_ok]; rfl

theorem escd_append (e : UInt8) (a b : List UInt8) : escd e (a ++ b) = escd e a ++ escd (escAfter e a) b := by
  induction a generalizing e with
  | nil => rfl
  | cons o a ih =>
    rw [List.cons_append, escd, escd, escAfter]
    split
    · rw [ih]; rfl
    · rw [ih]; rfl

/-- A string is read octet by octet. -/
theorem dec_steps {D : Dict} {la p q : Nat} {w : List UInt8} (st : Steps D la p w q) : ∀ (d : Vs) (l : List UInt8),
    d.transparent = true → d.escaped = false → d.updateAt = 0 → d.dict = D → d.lastAdded = la → d.lastMatched = p →
    d.flushed = 0 → d.n7 ≤ 250 → d.str.length < d.n7 → d.str.length + w.length ≤ d.n7 →
    (d.str.length + w.length < d.n7 → Goes d (escd d.esc w ++ l)
      { d with lastMatched := q, str := d.str ++ w, esc := escAfter d.esc w } l) ∧
    (d.str.length + w.length = d.n7 → ∃ b u, Goes d (escd d.esc w ++ l)
      { d with lastMatched := 0, str := [], esc := escAfter d.esc w, buf := b, out := u } l ∧
      u ++ b = d.out ++ d.buf ++ d.str ++ w) := by
  induction st with
  | nil p =>
    intro d l h1 h2 h3 h4 h5 h6 h7 h8 h9 h10
    refine ⟨fun _ => ?_, fun h => by simp at h; omega⟩
    rw [← h6, List.append_nil]
    exact Goes.refl _ _
  | @cons p c q o w hm hc hl st ih =>
    intro d l h1 h2 h3 h4 h5 h6 h7 h8 h9 h10
    rw [List.length_cons] at h10 ⊢
    have e1 : escd d.esc (o :: w) = escd d.esc [o] ++ escd (escAfter d.esc [o]) w := escd_append d.esc [o] w
    have e2 : escAfter d.esc (o :: w) = escAfter (escAfter d.esc [o]) w := rfl
    rw [e1, e2, List.append_assoc]
    by_cases hlt : d.str.length + 1 < d.n7
    · have hr := plainRound_go (d := { d with escaped := false, esc := escAfter d.esc [o] }) (o := o) (c := c) h3
        (by dsimp only; rw [h4, h6]; exact hm) hc (by dsimp only; rw [h5]; exact hl) h7 h8 hlt
      have g1 := dec_plain (l := escd (escAfter d.esc [o]) w ++ l) h1 h2 (plainOctet_of hr)
      have h := ih { d with escaped := false, esc := escAfter d.esc [o], lastMatched := c, str := d.str ++ [o] } l h1 rfl h3 h4
        h5 rfl h7 h8 (by dsimp only; rw [List.length_append]; exact hlt)
        (by dsimp only; rw [List.length_append, List.length_singleton]; omega)
      dsimp only at h
      rw [← h2] at h g1
      refine ⟨fun hx => ?_, fun hx => ?_⟩
      · have h' := h.1 (by rw [List.length_append, List.length_singleton]; omega)
        rw [List.append_assoc] at h'
        exact g1.trans h'
      · obtain ⟨b, u, h', h''⟩ := h.2 (by rw [List.length_append, List.length_singleton]; omega)
        exact ⟨b, u, g1.trans h', by rw [h'']; simp⟩
    · have hw : w = [] := by cases w with
        | nil => rfl
        | cons a w => simp at h10; omega
      subst hw
      refine ⟨fun hx => by simp at hx; omega, fun hx => ?_⟩
      obtain ⟨b, u, hr, hbu⟩ := plainRound_full (d := { d with escaped := false, esc := escAfter d.esc [o] }) (o := o) (c := c) h3
        (by dsimp only; rw [h4, h6]; exact hm) hc (by dsimp only; rw [h5]; exact hl) h7 h8 (by dsimp only; simp at hx; omega)
      have g1 := dec_plain (l := l) h1 h2 (plainOctet_of hr)
      dsimp only at g1 hbu
      rw [← h2] at g1
      exact ⟨b, u, g1, hbu⟩

end Verif.V42
