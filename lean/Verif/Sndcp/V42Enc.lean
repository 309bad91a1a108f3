import Verif.Sndcp.V42Sim

/-!
# V.42bis: the compressor by itself
-/
namespace Verif.V42

/-- The compressor between two strings. -/
structure Enc (e : Vs) : Prop where
  n2lo : 512 ≤ e.n2
  n2hi : e.n2 ≤ 4096
  n7lo : 6 ≤ e.n7
  n7hi : e.n7 ≤ 250
  pow : e.c3 = 2 ^ e.c2
  c2lo : 9 ≤ e.c2
  c2hi : e.c2 ≤ 12
  wf : DWF e.dict e.c1 e.n2
  elm : e.lastMatched = 0
  estr : e.str = []
  efl : e.flushed = 0
  eg : e.Good
  ebc : e.transparent = true → e.bitCount = 0
  ela : e.lastAdded = 0 ∨ 259 ≤ e.lastAdded
  eU : e.updateAt = 0 ∨ (3 ≤ e.updateAt ∧ e.updateAt < e.n2 ∧ e.updateAt ≠ e.c1)

theorem update_ok {e : Vs} (h : Enc e) (y : UInt8) : ∃ D c la,
    e.update y = .ok { e with dict := D, c1 := c, lastAdded := la, updateAt := 0 } ∧ DWF D c e.n2 ∧ (la = 0 ∨ 259 ≤ la) := by
  rcases h.eU with h0 | ⟨h1, h2, h3⟩
  · refine ⟨e.dict, e.c1, e.lastAdded, ?_, h.wf, h.ela⟩
    rw [update_zero h0, ← h0]
  · obtain ⟨r, hr, -⟩ := match_ok h.wf h1 (by have := h.n2hi; omega) y
    unfold Vs.update
    rw [if_pos (by omega), hr, bind_ok]
    by_cases hr0 : r = 0
    · rw [if_pos hr0]
      obtain ⟨D', y', hD', -, -, hadd⟩ := addOctet_all h.wf h1 (by have := h.n2hi; omega) h3 y
      refine ⟨D', y', e.c1, ?_, hD', .inr h.wf.c1lo⟩
      rw [hadd e rfl rfl rfl, bind_ok]
    · rw [if_neg hr0]
      exact ⟨e.dict, e.c1, e.lastAdded, rfl, h.wf, h.ela⟩

/-- How a string ended: the octet after it does not go on in the dictionary, it would use the entry added last, or the
string has the full length.  `ua` and `la'` are the entry to add below and the entry added last. -/
def Cut (D : Dict) (la n7 p len : Nat) (rest : List UInt8) (ua la' : Nat) : Prop :=
  (ua = p ∧ la' = la ∧ len < n7 ∧ ∃ z l', rest = z :: l' ∧ matchOctet D p z = .ok 0) ∨
  (ua = 0 ∧ la' = 0 ∧ len < n7 ∧ la ≠ 0 ∧ ∃ z l', rest = z :: l' ∧ matchOctet D p z = .ok la) ∨
  (ua = 0 ∧ la' = la ∧ len = n7)

/-- A round of the compressor, up to the sending of the string. -/
structure Round (e : Vs) (y : UInt8) (l w rest : List UInt8) (p : Nat) (D : Dict) (c la : Nat) : Prop where
  upd : e.update y = .ok { e with dict := D, c1 := c, lastAdded := la, updateAt := 0 }
  wf : DWF D c e.n2
  hla : la = 0 ∨ 259 ≤ la
  split : l = w ++ rest
  steps : Steps D la 0 (y :: w) p
  len : (y :: w).length ≤ e.n7
  range : 3 ≤ p ∧ p < e.n2 ∧ p ≠ c ∧ p ≠ la

theorem round_ok {e : Vs} (h : Enc e) (y : UInt8) (l : List UInt8) : ∃ w rest p D c la, Round e y l w rest p D c la ∧
    ((rest = [] ∧ (y :: w).length < e.n7 ∧ walk { e with dict := D, c1 := c, lastAdded := la, updateAt := 0 } (y :: l) =
        .ok ({ e with dict := D, c1 := c, lastAdded := la, updateAt := 0, lastMatched := p, str := y :: w }, [])) ∨
     ∃ ua la', Cut D la e.n7 p (y :: w).length rest ua la' ∧
       walk { e with dict := D, c1 := c, lastAdded := la, updateAt := 0 } (y :: l) =
        (Vs.sendData { e with dict := D, c1 := c, lastAdded := la', updateAt := ua, lastMatched := p, str := y :: w } p >>=
          fun t => .ok ({ t with lastMatched := 0 }, rest))) := by
  obtain ⟨D, c, la, hu, hw, hla⟩ := update_ok h y
  have h6 := h.n7lo
  obtain ⟨w0, rest, p, e1, e2, e3, e4⟩ := walk_ok (y :: l) { e with dict := D, c1 := c, lastAdded := la, updateAt := 0 } hw
    (.inl h.elm) h.efl h.n7hi (by dsimp only; rw [h.estr]; simp only [List.length_nil]; omega)
  dsimp only at e2 e3 e4
  rw [h.elm] at e2
  rw [h.estr, List.length_nil, Nat.zero_add] at e3 e4
  -- the string is not empty
  have hy := y.toNat_lt
  cases w0 with
  | nil =>
    exfalso
    cases e2
    rcases e4 with ⟨rfl, -⟩ | ⟨z, l', -, -, hz, -⟩ | ⟨z, l', -, -, -, hz, -⟩ | ⟨hz, -⟩
    · cases e1
    · rw [match_root] at hz; injection hz with hz; omega
    · rw [match_root] at hz; injection hz with hz
      have := z.toNat_lt
      omega
    · simp only [List.length_nil] at hz; omega
  | cons y' w =>
    injection e1 with e1 e1'
    subst e1
    refine ⟨w, rest, p, D, c, la, ⟨hu, hw, hla, e1', e2, e3, steps_range hw e2 (.inl rfl) (.inl (by simp))⟩, ?_⟩
    simp only [List.nil_append] at e4
    rw [h.estr]
    rcases e4 with ⟨h1, h2, h3⟩ | ⟨z, l', h1, h2, h3, h4⟩ | ⟨z, l', h1, h2, h3, h4, h5⟩ | ⟨h1, h2⟩
    · exact .inl ⟨h1, h2, h3⟩
    · exact .inr ⟨p, la, .inl ⟨rfl, rfl, h2, z, l', h1, h3⟩, h4⟩
    · exact .inr ⟨0, 0, .inr (.inl ⟨rfl, rfl, h2, h3, z, l', h1, h4⟩), h5⟩
    · exact .inr ⟨0, la, .inr (.inr ⟨rfl, rfl, h1⟩), h2⟩

/-- The compressor after it sent a string. -/
def sentState (e : Vs) (D : Dict) (c la ua : Nat) (w : List UInt8) (pf c2 : Nat) (b u : List UInt8) (bb bc lm fl : Nat) : Vs :=
  { e with dict := D, c1 := c, lastAdded := la, updateAt := ua, lastMatched := lm, perf := pf, str := [], flushed := fl,
           esc := escAfter e.esc w, c2 := c2, c3 := 2 ^ c2, buf := b, out := u, bitBuf := bb, bitCount := bc }

/-- The bits that are sent for a string, and how they are read. -/
structure Sent (e : Vs) (w : List UInt8) (p c2 bc : Nat) (k : List Bool) : Prop where
  mono : e.c2 ≤ c2
  hi : c2 ≤ 12
  size : k.length ≤ 48 * w.length
  plain : e.transparent = true → bc = 0 ∧ c2 = e.c2 ∧ k = octsBits (escd e.esc w)
  code : e.transparent = false → ∀ (d : Vs) (l : List UInt8) (rest : List Bool), d.transparent = false → d.Good → d.c2 = e.c2 →
        d.c3 = e.c3 → 512 ≤ d.n2 → 3 ≤ p → d.pend ++ octsBits l = k ++ rest →
        ∃ db dc l', Vs.Good { d with c2 := c2, c3 := 2 ^ c2, bitBuf := db, bitCount := dc } ∧
          Vs.pend { d with c2 := c2, c3 := 2 ^ c2, bitBuf := db, bitCount := dc } ++ octsBits l' = rest ∧
          ∀ d', Vs.codeword { d with c2 := c2, c3 := 2 ^ c2, bitBuf := db, bitCount := dc } p = .ok d' → Goes d l d' l'

theorem send_ok {e : Vs} (h : Enc e) {D : Dict} {c la ua p : Nat} {w : List UInt8} (hw : w ≠ []) (hp : p < e.n2) :
    ∃ pf c2 b u bb bc k, Vs.sendData { e with dict := D, c1 := c, lastAdded := la, updateAt := ua, lastMatched := p, str := w } p =
      .ok (sentState e D c la ua w pf c2 b u bb bc p 0) ∧ Sent e w p c2 bc k ∧
      (∀ lm fl, (sentState e D c la ua w pf c2 b u bb bc lm fl).bitsOut = e.bitsOut ++ k ∧
        (sentState e D c la ua w pf c2 b u bb bc lm fl).Good) := by
  have hi := h.n2hi
  obtain ⟨pf, c2, b, u, bb, bc, k, s1, s2, s3, s4, s5, s6, s7, s8, s9⟩ := sendData_ok (code := p)
    (s := { e with dict := D, c1 := c, lastAdded := la, updateAt := ua, lastMatched := p, str := w }) (by omega)
    ⟨h.eg.count, h.eg.buf⟩ h.pow h.c2lo h.c2hi h.ebc
  have hl : 1 ≤ w.length := List.length_pos_iff.mpr hw
  refine ⟨pf, c2, b, u, bb, bc, k, s1, ⟨s4, s5, ?_, s8, s9⟩, fun lm fl => ⟨s3, ⟨s2.count, s2.buf⟩⟩⟩
  by_cases ht : e.transparent = true
  · obtain ⟨-, -, hk⟩ := s8 ht
    rw [hk, octsBits_length]
    have := escd_length e.esc w
    dsimp only
    omega
  · have := s7 (by cases hx : e.transparent with
      | true => exact absurd hx ht
      | false => rfl)
    omega

theorem enc_sent {e : Vs} (h : Enc e) {y : UInt8} {l w rest : List UInt8} {p : Nat} {D : Dict} {c la ua la' : Nat}
    (R : Round e y l w rest p D c la) (C : Cut D la e.n7 p (y :: w).length rest ua la') {pf c2 : Nat} {b u : List UInt8}
    {bb bc : Nat} {k : List Bool} (S : Sent e (y :: w) p c2 bc k)
    (g : (sentState e D c la' ua (y :: w) pf c2 b u bb bc 0 0).Good) :
    Enc (sentState e D c la' ua (y :: w) pf c2 b u bb bc 0 0) := by
  have h9 := h.c2lo
  have hm := S.mono
  refine ⟨h.n2lo, h.n2hi, h.n7lo, h.n7hi, rfl, by show 9 ≤ c2; omega, S.hi, R.wf, rfl, rfl, rfl, g, fun ht => (S.plain ht).1, ?_, ?_⟩
  · show la' = 0 ∨ 259 ≤ la'
    rcases C with ⟨-, h1, -⟩ | ⟨-, h1, -⟩ | ⟨-, h1, -⟩
    · rw [h1]; exact R.hla
    · exact .inl h1
    · rw [h1]; exact R.hla
  · show ua = 0 ∨ (3 ≤ ua ∧ ua < e.n2 ∧ ua ≠ c)
    rcases C with ⟨h1, -⟩ | ⟨h1, -⟩ | ⟨h1, -⟩
    · rw [h1]; exact .inr ⟨R.range.1, R.range.2.1, R.range.2.2.1⟩
    · exact .inl h1
    · exact .inl h1

/-- The mode does not change, or it does, with these bits. -/
inductive Changed (e : Vs) : Vs → List Bool → Prop
  | stay : Changed e e []
  | code (b u : List UInt8) : e.transparent = true →
      Changed e { e with buf := b, out := u, bitBuf := 0, bitCount := 0, transparent := false } (octsBits [e.esc, 0])
  | plain (b u : List UInt8) (n : Nat) : e.transparent = false → n < 8 →
      Changed e { e with buf := b, out := u, bitBuf := 0, bitCount := 0, lastAdded := 0, transparent := true }
        (codeBits e.c2 0 ++ List.replicate n false)

theorem Changed.size {e e' : Vs} {k : List Bool} (h : Changed e e' k) (h12 : e.c2 ≤ 12) : k.length ≤ 19 := by
  cases h with
  | stay => simp
  | code b u _ => rw [octsBits_length]; simp
  | plain b u n _ hn => rw [List.length_append, codeBits_length, List.length_replicate]; omega

theorem monitor_ok {e : Vs} (h : Enc e) : ∃ e' k, e.monitor = .ok e' ∧ Changed e e' k ∧ Enc e' ∧ Stable e' ∧
    e'.bitsOut = e.bitsOut ++ k := by
  unfold Vs.monitor
  by_cases ht : e.transparent = true
  · rw [if_pos ht]
    by_cases hp : e.perf < 2048 - 11
    · rw [if_pos hp]
      have h0 := h.ebc ht
      have hb0 : e.bitBuf = 0 := by have := h.eg.buf; rw [h0] at this; omega
      unfold Vs.goCompressed Vs.sendPending
      rw [if_neg (by rw [h.elm]; decide), bind_ok]
      have p1 := pushOctet_eq e e.esc
      have p2 := pushOctet_eq (e.pushOctet e.esc) 0
      generalize e.pushOctet e.esc = s1 at p1 p2
      obtain ⟨b1, u1, rfl⟩ : ∃ b1 u1, s1 = { e with buf := b1, out := u1 } := ⟨_, _, p1.1⟩
      generalize Vs.pushOctet { e with buf := b1, out := u1 } 0 = s2 at p2
      obtain ⟨b, u, rfl⟩ : ∃ b u, s2 = { e with buf := b, out := u } := ⟨_, _, p2.1⟩
      dsimp only at p1 p2
      refine ⟨{ e with buf := b, out := u, bitBuf := 0, bitCount := 0, transparent := false }, octsBits [e.esc, 0], ?_, .code b u ht, ?_, ?_, ?_⟩
      · rw [← h0]
      · exact ⟨h.n2lo, h.n2hi, h.n7lo, h.n7hi, h.pow, h.c2lo, h.c2hi, h.wf, h.elm, h.estr, h.efl,
          ⟨Nat.zero_lt_succ 7, Nat.one_pos⟩, fun _ => rfl, h.ela, h.eU⟩
      · exact ⟨fun h => (by cases h), fun _ => by dsimp only; omega⟩
      · unfold Vs.bitsOut Vs.pend
        dsimp only
        rw [p2.2, p1.2, h0]
        simp [codeBits, octsBits]
    · rw [if_neg hp]
      exact ⟨e, [], rfl, .stay, h, ⟨fun _ => by omega, fun hf => by rw [ht] at hf; cases hf⟩, (List.append_nil _).symm⟩
  · rw [if_neg ht]
    have htf : e.transparent = false := by cases hx : e.transparent with
      | true => exact absurd hx ht
      | false => rfl
    by_cases hp : 2048 < e.perf
    · rw [if_pos hp]
      unfold Vs.goTransparent Vs.sendPending
      rw [if_neg (by rw [h.elm]; decide), bind_ok]
      have h12 := h.c2hi
      have p1 := pushCode_emits (s := { e with lastAdded := 0 }) (code := 0) ⟨h.eg.count, h.eg.buf⟩ (Nat.two_pow_pos _) (by dsimp only; omega)
      generalize Vs.pushCode { e with lastAdded := 0 } 0 = s1 at p1
      have p2 := align_emits p1.good
      generalize hs2 : s1.align = s2 at p2
      have p3 := p1.trans p2.1
      obtain ⟨b, u, bb, bc, rfl⟩ : ∃ b u bb bc, s2 = { e with lastAdded := 0, buf := b, out := u, bitBuf := bb, bitCount := bc } := ⟨_, _, _, _, p3.eq⟩
      have hbc : bc = 0 := p2.2
      subst hbc
      have hbb : bb = 0 := by have := p2.1.good.buf; dsimp only at this; omega
      subst hbb
      refine ⟨_, _, rfl, .plain b u ((8 - s1.bitCount) % 8) htf (Nat.mod_lt _ (by decide)), ?_, ?_, ?_⟩
      · exact ⟨h.n2lo, h.n2hi, h.n7lo, h.n7hi, h.pow, h.c2lo, h.c2hi, h.wf, h.elm, h.estr, h.efl,
          ⟨Nat.zero_lt_succ 7, Nat.one_pos⟩, fun _ => rfl, .inl rfl, h.eU⟩
      · exact ⟨fun _ => by dsimp only; omega, fun h => (by cases h)⟩
      · exact p3.bits
    · rw [if_neg hp]
      exact ⟨e, [], rfl, .stay, h, ⟨fun hf => absurd hf ht, fun _ => by omega⟩, (List.append_nil _).symm⟩

theorem monitor_stable {e : Vs} (h : Stable e) : e.monitor = .ok e := by
  unfold Vs.monitor
  split
  · rw [if_neg (by have := h.1 (by assumption); omega)]
  · rename_i ht
    have htf : e.transparent = false := by cases hx : e.transparent with
      | true => exact absurd hx ht
      | false => rfl
    rw [if_neg (by have := h.2 htf; omega)]

/-- The end: nothing more in transparent mode, a FLUSH and padding in compressed mode. -/
inductive Fin (s : Vs) : List Bool → Prop
  | plain : s.transparent = true → Fin s []
  | code (n : Nat) : s.transparent = false → n < 8 → Fin s (codeBits s.c2 1 ++ List.replicate n false)

theorem Fin.size {s : Vs} {k : List Bool} (h : Fin s k) (h12 : s.c2 ≤ 12) : k.length ≤ 19 := by
  cases h with
  | plain _ => simp
  | code n _ hn => rw [List.length_append, codeBits_length, List.length_replicate]; omega

/-- What `v42bis_compress_flush` does at last. -/
def Vs.last (s : Vs) : Vs :=
  if s.transparent then s.flushOctets
  else (({ s with updateAt := s.lastMatched, lastMatched := 0, flushed := 0 }.pushCode 1).align).flushOctets

theorem last_ok {s : Vs} (g : s.Good) (h9 : 9 ≤ s.c2) (h12 : s.c2 ≤ 12) (h0 : s.transparent = true → s.bitCount = 0) :
    ∃ k, Fin s k ∧ octsBits s.last.out = s.bitsOut ++ k := by
  unfold Vs.last
  by_cases ht : s.transparent = true
  · rw [if_pos ht]
    refine ⟨[], .plain ht, ?_⟩
    unfold Vs.flushOctets Vs.bitsOut Vs.pend
    dsimp only
    rw [h0 ht]
    simp [codeBits]
  · rw [if_neg ht]
    have htf : s.transparent = false := by cases hx : s.transparent with
      | true => exact absurd hx ht
      | false => rfl
    have h1 : 1 < 2 ^ s.c2 := Nat.lt_of_lt_of_le (by decide : 1 < 2 ^ 9) (Nat.pow_le_pow_right (by decide) h9)
    have p1 := pushCode_emits (s := { s with updateAt := s.lastMatched, lastMatched := 0, flushed := 0 }) (code := 1)
      ⟨g.count, g.buf⟩ h1 (by dsimp only; omega)
    generalize Vs.pushCode { s with updateAt := s.lastMatched, lastMatched := 0, flushed := 0 } 1 = s1 at p1
    have p2 := align_emits p1.good
    have p3 := p1.trans p2.1
    refine ⟨_, .code ((8 - s1.bitCount) % 8) htf (Nat.mod_lt _ (by decide)), ?_⟩
    refine Eq.trans ?_ p3.bits
    unfold Vs.flushOctets Vs.bitsOut Vs.pend
    dsimp only
    rw [p2.2]
    simp [codeBits]

theorem flush_sent {e : Vs} {D : Dict} {c la p : Nat} {w : List UInt8} {pf c2 : Nat} {b u : List UInt8} {bb bc : Nat} (hp : p ≠ 0)
    (hs : Vs.sendData { e with dict := D, c1 := c, lastAdded := la, updateAt := 0, lastMatched := p, str := w } p =
      .ok (sentState e D c la 0 w pf c2 b u bb bc p 0)) :
    Vs.compressFlush { e with dict := D, c1 := c, lastAdded := la, updateAt := 0, lastMatched := p, str := w } =
      .ok (sentState e D c la 0 w pf c2 b u bb bc p w.length).last := by
  unfold Vs.compressFlush
  dsimp only
  rw [if_neg (by decide), if_pos hp, hs, bind_ok, bind_ok]
  unfold Vs.last
  have : (0 + w.length) = w.length := Nat.zero_add _
  unfold sentState
  dsimp only
  rw [this]
  split <;> rfl

theorem flush_zero {e : Vs} (h0 : e.updateAt = 0) (hm : e.lastMatched = 0) : e.compressFlush = .ok e.last := by
  unfold Vs.compressFlush Vs.last
  rw [if_neg (by omega), if_neg (by omega), bind_ok]
  dsimp only
  split <;> rfl

/-- The compressor works for all data, and this is how much it sends at most. -/
theorem enc_ok : ∀ (n : Nat) (e : Vs) (l : List UInt8), Enc e → Stable e → (l = [] → e.updateAt = 0) → l.length ≤ n →
    ∃ f g k, compLoop n e l = .ok f ∧ f.compressFlush = .ok g ∧ octsBits g.out = e.bitsOut ++ k ∧ k.length ≤ 67 * l.length + 19
  | n, e, [], h, _, h0, _ => by
    obtain ⟨k, h1, h2⟩ := last_ok h.eg h.c2lo h.c2hi h.ebc
    exact ⟨e, e.last, k, by cases n <;> rfl, flush_zero (h0 rfl) h.elm, h2, by have := h1.size h.c2hi; simpa using this⟩
  | 0, _, _ :: _, _, _, _, hn => by simp at hn
  | n + 1, e, y :: l, h, hs, _, hn => by
    obtain ⟨w, rest, p, D, c, la, R, hR⟩ := round_ok h y l
    rw [List.length_cons] at hn ⊢
    have hlen : l.length = w.length + rest.length := by rw [R.split, List.length_append]
    rcases hR with ⟨hr, hlt, hwk⟩ | ⟨ua, la', C, hwk⟩
    · subst hr
      have hl : compLoop (n + 1) e (y :: l) =
          .ok { e with dict := D, c1 := c, lastAdded := la, updateAt := 0, lastMatched := p, str := y :: w } := by
        rw [compLoop, R.upd, bind_ok, hwk, bind_ok]
        dsimp only
        rw [monitor_stable (e := { e with dict := D, c1 := c, lastAdded := la, updateAt := 0, lastMatched := p, str := y :: w })
          ⟨hs.1, hs.2⟩, bind_ok]
        cases n <;> rfl
      obtain ⟨pf, c2, b, u, bb, bc, k, s1, S, s2⟩ := send_ok h (D := D) (c := c) (la := la) (ua := 0) (p := p) (w := y :: w)
        (by simp) R.range.2.1
      obtain ⟨s3, s4⟩ := s2 p (y :: w).length
      have h9 := h.c2lo
      have hm := S.mono
      obtain ⟨k', h1, h2⟩ := last_ok s4 (by show 9 ≤ c2; omega) S.hi fun ht => (S.plain ht).1
      refine ⟨_, _, k ++ k', hl, flush_sent (by have := R.range; omega) s1, ?_, ?_⟩
      · rw [h2, s3, List.append_assoc]
      · have a1 := h1.size S.hi
        have a2 := S.size
        rw [List.length_cons] at a2
        rw [List.length_append, hlen, List.length_nil]
        omega
    · obtain ⟨pf, c2, b, u, bb, bc, k, s1, S, s2⟩ := send_ok h (D := D) (c := c) (la := la') (ua := ua) (p := p) (w := y :: w)
        (by simp) R.range.2.1
      obtain ⟨s3, s4⟩ := s2 0 0
      have E2 := enc_sent h R C S s4
      obtain ⟨e', k', m1, m2, m3, m4, m5⟩ := monitor_ok E2
      obtain ⟨f, g, k'', f1, f2, f3, f4⟩ := enc_ok n e' rest m3 m4 (by
          rintro rfl
          have hu : e'.updateAt = ua := by cases m2 <;> rfl
          rw [hu]
          rcases C with ⟨-, -, -, z, l', hz, -⟩ | ⟨h1, -⟩ | ⟨h1, -⟩
          · cases hz
          · exact h1
          · exact h1) (by omega)
      refine ⟨f, g, k ++ (k' ++ k''), ?_, f2, ?_, ?_⟩
      · rw [compLoop, R.upd, bind_ok, hwk, s1, bind_ok, bind_ok]
        exact (congrArg (· >>= fun s => compLoop n s rest) m1).trans f1
      · rw [f3, m5, s3]; simp
      · have a1 := m2.size E2.c2hi
        have a2 := S.size
        rw [List.length_cons] at a2
        simp only [List.length_append]
        omega

end Verif.V42
