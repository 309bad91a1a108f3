import Verif.Sndcp.V42Enc

/-!
# V.42bis: the round trip
-/
namespace Verif.V42

/-- The decompressor after it read a string. -/
structure After (e d d' : Vs) (D : Dict) (c la c2 p : Nat) (w : List UInt8) : Prop where
  n2 : d'.n2 = d.n2
  n7 : d'.n7 = d.n7
  dict : d'.dict = D
  c1 : d'.c1 = c
  hc2 : d'.c2 = c2
  c3 : d'.c3 = 2 ^ c2
  esc : d'.esc = escAfter d.esc w
  mode : d'.transparent = d.transparent
  escaped : d'.escaped = false
  dfl : d'.flushed = 0
  dg : d'.Good
  dbc : e.transparent = true → d'.bitCount = 0
  hla : d'.lastAdded = la
  hat : d'.at = if w.length = e.n7 then 0 else p
  lm : e.transparent = true → w.length ≠ e.n7 → d'.lastMatched ≠ 0
  upd : e.transparent = true → d'.updateAt = 0
  dstr : d'.lastMatched = 0 → d'.str = []
  dcode : e.transparent = false → d'.lastMatched = 0
  total : d'.total = d.total ++ w

theorem tf {b : Bool} (h : ¬ b = true) : b = false := by
  cases b with
  | true => exact absurd rfl h
  | false => rfl

theorem dec_sent {e d : Vs} {y : UInt8} {l w rest : List UInt8} {p : Nat} {D : Dict} {c la c2 bc : Nat} {k rb : List Bool}
    (B : Base e d) (L : Link e d (y :: l)) (R : Round e y l w rest p D c la) (S : Sent e (y :: w) p c2 bc k) {o : List UInt8}
    (ho : d.pend ++ octsBits o = k ++ rb) :
    ∃ d' o', d'.pend ++ octsBits o' = rb ∧ Goes d o d' o' ∧ After e d d' D c la c2 p (y :: w) := by
  obtain ⟨D1, c1, la1, hu, hwf, hla, hpl, hco⟩ := sync B L
  have hx := hu.symm.trans R.upd
  injection hx with hx
  obtain rfl : D1 = D := congrArg Vs.dict hx
  obtain rfl : c1 = c := congrArg Vs.c1 hx
  obtain rfl : la1 = la := congrArg Vs.lastAdded hx
  clear hx
  have h6 := B.n7lo
  have h250 := B.n7hi
  have hlen := R.len
  have hr := R.range
  by_cases ht : e.transparent = true
  · obtain ⟨hbc, hc2, rfl⟩ := S.plain ht
    have hpd : d.pend = [] := by unfold Vs.pend; rw [B.dbc ht]; rfl
    rw [hpd, List.nil_append] at ho
    obtain ⟨o', rfl, ho'⟩ := octsBits_prefix ho
    have hdt : d.transparent = true := by rw [B.mode]; exact ht
    obtain ⟨b1, u1, q1, q2⟩ := hpl ht (escAfter d.esc [y])
    have g1 := dec_plain (l := escd (escAfter d.esc [y]) w ++ o') hdt B.escaped q1
    have hst : Steps D1 la1 (y.toNat + 3) w p := by
      cases R.steps with
      | cons h1 _ _ h4 =>
        rw [match_root] at h1
        injection h1 with h1
        rw [h1]; exact h4
    have hd := dec_steps hst { d with dict := D1, c1 := c1, lastAdded := la1, updateAt := 0, lastMatched := y.toNat + 3, str := [y], buf := b1, out := u1, flushed := 0, esc := escAfter d.esc [y], escaped := false }
      o' hdt rfl rfl rfl rfl rfl rfl (by dsimp only; rw [B.n7]; exact h250) (by dsimp only; rw [B.n7]; simp only [List.length_singleton]; omega)
      (by dsimp only; rw [B.n7]; simp only [List.length_cons, List.length_nil] at hlen ⊢; omega)
    dsimp only at hd
    have hesc : escd e.esc (y :: w) ++ o' = escd d.esc [y] ++ (escd (escAfter d.esc [y]) w ++ o') := by
      rw [← List.append_assoc, ← escd_append, ← B.esc]; rfl
    rw [hesc]
    have hgood := B.dg
    by_cases hfull : (y :: w).length = e.n7
    · obtain ⟨b, u, g2, hbu⟩ := hd.2 (by rw [B.n7]; simp only [List.length_cons, List.length_nil] at hfull ⊢; omega)
      refine ⟨_, o', ?_, g1.trans g2, ⟨rfl, rfl, rfl, rfl, ?_, ?_, rfl, rfl, rfl, rfl, ⟨hgood.count, hgood.buf⟩, fun _ => B.dbc ht, rfl, ?_, ?_,
        fun _ => rfl, fun _ => rfl, fun _ => rfl, ?_⟩⟩
      · unfold Vs.pend; dsimp only; rw [B.dbc ht]; exact ho'
      · dsimp only; rw [B.c2, hc2]
      · dsimp only; rw [B.c3, B.pow, hc2]
      · rw [if_pos hfull]; rfl
      · intro _ h; exact absurd hfull h
      · unfold Vs.total
        dsimp only
        rw [List.append_nil, hbu, q2]
        simp
    · have g2 := hd.1 (by rw [B.n7]; simp only [List.length_cons, List.length_nil] at hfull hlen ⊢; omega)
      refine ⟨_, o', ?_, g1.trans g2, ⟨rfl, rfl, rfl, rfl, ?_, ?_, rfl, rfl, rfl, rfl, ⟨hgood.count, hgood.buf⟩, fun _ => B.dbc ht, rfl, ?_, ?_,
        fun _ => rfl, ?_, ?_, ?_⟩⟩
      · unfold Vs.pend; dsimp only; rw [B.dbc ht]; exact ho'
      · dsimp only; rw [B.c2, hc2]
      · dsimp only; rw [B.c3, B.pow, hc2]
      · rw [if_neg hfull]; unfold Vs.at; dsimp only; rw [if_pos (by omega)]
      · intro _ _; dsimp only; omega
      · intro h; dsimp only at h; omega
      · intro h; rw [ht] at h; cases h
      · unfold Vs.total
        dsimp only
        rw [q2]
        simp
  · have htf := tf ht
    have hdt : d.transparent = false := by rw [B.mode]; exact htf
    obtain ⟨db, dc, o', s1, s2, s3⟩ := S.code htf d o rb hdt B.dg B.c2 B.c3 (by rw [B.n2]; exact B.n2lo) hr.1 ho
    obtain ⟨b, u, q1, q2⟩ := hco htf w p R.steps hlen c2 (2 ^ c2) db dc
    have hgo := s3 _ q1
    refine ⟨_, o', ?_, hgo, ⟨rfl, rfl, rfl, rfl, rfl, rfl, rfl, rfl, B.escaped, rfl, ⟨s1.count, s1.buf⟩, fun h => absurd h ht, rfl, ?_,
      fun h => absurd h ht, fun h => absurd h ht, fun _ => rfl, fun _ => B.dcode htf, ?_⟩⟩
    · exact s2
    · unfold Vs.at
      dsimp only
      rw [if_neg (by rw [B.dcode htf]; decide)]
    · unfold Vs.total
      dsimp only
      rw [List.append_nil, q2]

/-- After a string both ends agree again. -/
theorem base_sent {e d d' : Vs} {y : UInt8} {l w rest : List UInt8} {p : Nat} {D : Dict} {c la ua la' : Nat}
    (B : Base e d) (R : Round e y l w rest p D c la) (C : Cut D la e.n7 p (y :: w).length rest ua la') {pf c2 : Nat} {b u : List UInt8}
    {bb bc : Nat} {k : List Bool} (S : Sent e (y :: w) p c2 bc k) (E2 : Enc (sentState e D c la' ua (y :: w) pf c2 b u bb bc 0 0))
    (A : After e d d' D c la c2 p (y :: w)) :
    Base (sentState e D c la' ua (y :: w) pf c2 b u bb bc 0 0) d' ∧ Link (sentState e D c la' ua (y :: w) pf c2 b u bb bc 0 0) d' rest := by
  refine ⟨⟨B.n2lo, B.n2hi, B.n7lo, B.n7hi, A.n2.trans B.n2, A.n7.trans B.n7, A.dict, A.c1, A.hc2, A.c3, rfl, E2.c2lo, E2.c2hi, ?_,
    A.mode.trans B.mode, A.escaped, A.dfl, E2.wf, rfl, rfl, rfl, E2.eg, A.dg, E2.ebc, A.dbc, E2.ela, ?_, A.dstr, A.dcode⟩, ⟨?_, ?_⟩⟩
  · rw [A.esc, B.esc]; rfl
  · intro h
    by_cases ht : e.transparent = true
    · exact A.upd ht
    · exact absurd (A.dcode (tf ht)) h
  · rintro rfl
    show ua = 0
    rcases C with ⟨-, -, -, z, l', hz, -⟩ | ⟨h1, -⟩ | ⟨h1, -⟩
    · cases hz
    · exact h1
    · exact h1
  · intro z l' hz
    have hat := A.hat
    rcases C with ⟨h1, h2, h3, z', l'', h4, h5⟩ | ⟨h1, h2, h3, h4, z', l'', h5, h6⟩ | ⟨h1, h2, h3⟩
    · left
      rw [hz] at h4
      injection h4 with h4 _
      subst h4
      rw [if_neg (by omega)] at hat
      refine ⟨?_, ?_, fun _ => ?_⟩
      · show ua = d'.at; rw [hat, h1]
      · show la' = d'.lastAdded; rw [A.hla, h2]
      · rw [hat]
        exact ⟨R.range.1, R.range.2.1, R.range.2.2.1, h5⟩
    · right
      rw [hz] at h5
      injection h5 with h5 _
      subst h5
      rw [if_neg (by omega)] at hat
      refine ⟨h1, h2, by rw [hat]; have := R.range; omega, la, h4, by rw [hat]; exact h6, ?_⟩
      by_cases ht : e.transparent = true
      · exact .inl ⟨A.lm ht (by omega), A.hla⟩
      · exact .inr ⟨A.dcode (tf ht), .inr ⟨tf ht, A.hla⟩⟩
    · left
      rw [if_pos h3] at hat
      refine ⟨?_, ?_, fun h => absurd hat h⟩
      · show ua = d'.at; rw [hat, h1]
      · show la' = d'.lastAdded; rw [A.hla, h2]

/-- The change of the mode is read. -/
theorem dec_changed {e e' d : Vs} {l : List UInt8} {k rb : List Bool} (B : Base e d) (L : Link e d l) (hu : e.transparent = true → d.updateAt = 0)
    (E' : Enc e') (C : Changed e e' k) {o : List UInt8} (hal : (e'.bitCount + rb.length) % 8 = 0) (ho : d.pend ++ octsBits o = k ++ rb) :
    ∃ d' o', d'.pend ++ octsBits o' = rb ∧ Goes d o d' o' ∧ Base e' d' ∧ Link e' d' l ∧ d'.total = d.total := by
  cases C with
  | stay => exact ⟨d, o, ho, Goes.refl _ _, B, L, rfl⟩
  | code b u ht =>
    have hdt : d.transparent = true := by rw [B.mode]; exact ht
    have hbc := B.dbc ht
    have hpd : d.pend = [] := by unfold Vs.pend; rw [hbc]; rfl
    rw [hpd, List.nil_append] at ho
    obtain ⟨o', rfl, ho'⟩ := octsBits_prefix ho
    obtain ⟨b', u', h1, h2⟩ := sendString_ok { d with escaped := false }
    have hat : d.at = d.lastMatched := by
      unfold Vs.at
      split
      · rfl
      · rename_i h; rw [hu ht]; exact (Decidable.not_not.mp h).symm
    refine ⟨{ d with escaped := false, str := [], flushed := 0, buf := b', out := u', transparent := false, updateAt := d.lastMatched, lastMatched := 0 },
      o', ?_, ?_, ?_, ⟨L.fin, ?_⟩, ?_⟩
    · unfold Vs.pend; dsimp only; rw [hbc]; exact ho'
    · intro r hr
      refine decTo_step (d' := { d with escaped := true }) (l' := 0 :: o') ?_ (Nat.le_refl _) ?_
      · rw [if_pos hdt]
        unfold Vs.plainStep
        rw [if_neg (by rw [B.escaped]; decide), if_pos B.esc.symm]
        rfl
      · refine decTo_step (l' := o') ?_ (Nat.le_refl _) hr
        dsimp only
        rw [if_pos hdt]
        unfold Vs.plainStep
        dsimp only
        rw [if_pos rfl, if_pos rfl, h1]
    · exact ⟨B.n2lo, B.n2hi, B.n7lo, B.n7hi, B.n2, B.n7, B.dict, B.c1, B.c2, B.c3, B.pow, B.c2lo, B.c2hi, B.esc, rfl, rfl, rfl,
        B.wf, B.elm, B.estr, B.efl, E'.eg, ⟨B.dg.count, B.dg.buf⟩, fun _ => rfl, fun _ => hbc, B.ela, fun h => absurd rfl h,
        fun _ => rfl, fun _ => rfl⟩
    · intro y l' hy
      rcases L.next y l' hy with ⟨a1, a2, a3⟩ | ⟨a1, a2, a3, a, a4, a5, a6⟩
      · left
        unfold LinkAdd
        have : Vs.at { d with escaped := false, str := [], flushed := 0, buf := b', out := u', transparent := false, updateAt := d.lastMatched, lastMatched := 0 } = d.at := hat.symm
        rw [this]
        exact ⟨a1, a2, a3⟩
      · right
        unfold LinkHit
        have : Vs.at { d with escaped := false, str := [], flushed := 0, buf := b', out := u', transparent := false, updateAt := d.lastMatched, lastMatched := 0 } = d.at := hat.symm
        rw [this]
        refine ⟨a1, a2, a3, a, a4, a5, .inr ⟨rfl, ?_⟩⟩
        rcases a6 with ⟨-, h⟩ | ⟨h, -⟩
        · exact .inr ⟨rfl, h⟩
        · rw [hat] at a3; exact absurd h a3
    · unfold Vs.total
      dsimp only
      rw [List.append_nil, h2]
  | plain b u n ht hn =>
    have hdt : d.transparent = false := by rw [B.mode]; exact ht
    rw [List.append_assoc, ← B.c2] at ho
    obtain ⟨d1, o1, f1, f2, f3, f4, f5⟩ := dec_code hdt B.dg (by rw [B.c2]; exact B.c2lo) (by rw [B.c2]; exact B.c2hi) (Nat.two_pow_pos _) ho
    obtain ⟨db, dc, rfl⟩ : ∃ db dc, d1 = { d with bitBuf := db, bitCount := dc } := ⟨_, _, f1⟩
    have hlen := congrArg List.length f3
    simp only [List.length_append, Vs.pend, codeBits_length, octsBits_length, List.length_replicate] at hlen
    have h8 := f2.count
    dsimp only at h8 hal
    have hdc : dc = n := by omega
    subst hdc
    obtain ⟨g1, g2⟩ := List.append_inj f3 (by unfold Vs.pend; rw [codeBits_length, List.length_replicate])
    have hdb : db = 0 := by
      unfold Vs.pend at g1
      rw [← codeBits_zero] at g1
      exact codeBits_inj g1 f2.buf (Nat.two_pow_pos _)
    subst hdb
    have hlm := B.dcode ht
    refine ⟨{ d with bitBuf := 0, bitCount := 0, transparent := true, lastMatched := 0, lastAdded := 0 }, o1, ?_, ?_, ?_, ⟨L.fin, ?_⟩, ?_⟩
    · exact g2
    · refine f5 _ ?_
      rw [if_pos (by decide)]
      rfl
    · exact ⟨B.n2lo, B.n2hi, B.n7lo, B.n7hi, B.n2, B.n7, B.dict, B.c1, B.c2, B.c3, B.pow, B.c2lo, B.c2hi, B.esc, rfl, B.escaped, B.dfl,
        B.wf, B.elm, B.estr, B.efl, E'.eg, ⟨Nat.zero_lt_succ 7, Nat.one_pos⟩, fun _ => rfl, fun _ => rfl, .inl rfl, fun h => absurd rfl h,
        fun _ => B.dstr hlm, fun _ => rfl⟩
    · intro y l' hy
      have hat : Vs.at { d with bitBuf := 0, bitCount := 0, transparent := true, lastMatched := 0, lastAdded := 0 } = d.at := by
        unfold Vs.at
        dsimp only
        rw [if_neg (by decide), if_neg (by rw [hlm]; decide)]
      rcases L.next y l' hy with ⟨a1, a2, a3⟩ | ⟨a1, a2, a3, a, a4, a5, a6⟩
      · left
        unfold LinkAdd
        rw [hat]
        exact ⟨a1, rfl, a3⟩
      · right
        unfold LinkHit
        rw [hat]
        exact ⟨a1, rfl, a3, a, a4, a5, .inr ⟨rfl, .inl rfl⟩⟩
    · rfl

/-- The end is read. -/
theorem dec_fin {s d : Vs} {k : List Bool} (F : Fin s k) (hmode : d.transparent = s.transparent) (hc2 : d.c2 = s.c2) (g : d.Good)
    (h9 : 9 ≤ s.c2) (h12 : s.c2 ≤ 12) (hbc : s.transparent = true → d.bitCount = 0) {o : List UInt8}
    (ho : d.pend ++ octsBits o = k) : ∃ r, DecTo d o r ∧ r.total = d.total := by
  cases F with
  | plain ht =>
    have hpd : d.pend = [] := by unfold Vs.pend; rw [hbc ht]; rfl
    rw [hpd, List.nil_append] at ho
    have := congrArg List.length ho
    rw [octsBits_length] at this
    have h0 : o = [] := List.length_eq_zero_iff.mp (by rw [List.length_nil] at this; omega)
    subst h0
    exact ⟨d, decTo_nil d, rfl⟩
  | code n ht hn =>
    rw [← hc2] at ho h9 h12
    have h1 : 1 < 2 ^ d.c2 := Nat.lt_of_lt_of_le (by decide : 1 < 2 ^ 9) (Nat.pow_le_pow_right (by decide) h9)
    obtain ⟨d1, o1, f1, f2, f3, f4, f5⟩ := dec_code (hmode.trans ht) g h9 h12 h1 ho
    obtain ⟨db, dc, rfl⟩ : ∃ db dc, d1 = { d with bitBuf := db, bitCount := dc } := ⟨_, _, f1⟩
    have hlen := congrArg List.length f3
    simp only [List.length_append, Vs.pend, codeBits_length, octsBits_length, List.length_replicate] at hlen
    have h0 : o1 = [] := List.length_eq_zero_iff.mp (by omega)
    subst h0
    refine ⟨{ d with bitBuf := db, bitCount := 0 }, f5 _ ?_ _ (decTo_nil _), rfl⟩
    rw [if_pos (by decide)]
    rfl

theorem bits_length (s : Vs) : s.bitsOut.length = 8 * (s.out ++ s.buf).length + s.bitCount := by
  unfold Vs.bitsOut Vs.pend
  rw [List.length_append, octsBits_length, codeBits_length]

/-- What was compressed is what comes out. -/
theorem sim : ∀ (n : Nat) (e d : Vs) (l : List UInt8), Enc e → Stable e → Base e d → Link e d l → l.length ≤ n →
    ∀ (f g : Vs) (k : List Bool), compLoop n e l = .ok f → f.compressFlush = .ok g → octsBits g.out = e.bitsOut ++ k →
    ∀ o, d.pend ++ octsBits o = k → ∃ r, DecTo d o r ∧ r.total = d.total ++ l
  | n, e, d, [], h, _, B, L, _, f, g, k, hf, hg, hk, o, ho => by
    obtain ⟨k', h1, h2⟩ := last_ok h.eg h.c2lo h.c2hi h.ebc
    have hfe : f = e := by cases n <;> cases hf <;> rfl
    subst hfe
    rw [flush_zero (L.fin rfl) h.elm] at hg
    injection hg with hg
    subst hg
    rw [h2] at hk
    obtain rfl : k' = k := List.append_cancel_left hk
    rw [List.append_nil]
    exact dec_fin h1 B.mode B.c2 B.dg h.c2lo h.c2hi B.dbc ho
  | 0, _, _, _ :: _, _, _, _, _, hn, _, _, _, _, _, _, _, _ => by simp at hn
  | n + 1, e, d, y :: l, h, hs, B, L, hn, f, g, k, hf, hg, hk, o, ho => by
    obtain ⟨w, rest, p, D, c, la, R, hR⟩ := round_ok h y l
    rw [List.length_cons] at hn
    have hlen : l.length = w.length + rest.length := by rw [R.split, List.length_append]
    rcases hR with ⟨hr, hlt, hwk⟩ | ⟨ua, la', C, hwk⟩
    · subst hr
      have hl : compLoop (n + 1) e (y :: l) =
          .ok { e with dict := D, c1 := c, lastAdded := la, updateAt := 0, lastMatched := p, str := y :: w } := by
        rw [compLoop, R.upd, bind_ok, hwk, bind_ok]
        dsimp only
        rw [monitor_stable (e := { e with dict := D, c1 := c, lastAdded := la, updateAt := 0, lastMatched := p, str := y :: w })
          ⟨hs.1, hs.2⟩, bind_ok]
        cases n <;> rfl
      obtain ⟨pf, c2, b, u, bb, bc, k1, s1, S, s2⟩ := send_ok h (D := D) (c := c) (la := la) (ua := 0) (p := p) (w := y :: w)
        (by simp) R.range.2.1
      obtain ⟨s3, s4⟩ := s2 p (y :: w).length
      have h9 := h.c2lo
      have hm := S.mono
      obtain ⟨k', h1, h2⟩ := last_ok s4 (by show 9 ≤ c2; omega) S.hi fun ht => (S.plain ht).1
      rw [hl] at hf
      injection hf with hf
      subst hf
      rw [flush_sent (by have := R.range; omega) s1] at hg
      injection hg with hg
      subst hg
      rw [h2, s3, List.append_assoc] at hk
      obtain rfl := List.append_cancel_left hk
      obtain ⟨d', o', j1, j2, A⟩ := dec_sent B L R S ho
      obtain ⟨r, r1, r2⟩ := dec_fin (d := d') h1 (A.mode.trans B.mode) A.hc2 A.dg (by show 9 ≤ c2; omega) S.hi A.dbc j1
      refine ⟨r, j2 r r1, ?_⟩
      rw [r2, A.total, R.split, List.append_nil]
    · obtain ⟨pf, c2, b, u, bb, bc, k1, s1, S, s2⟩ := send_ok h (D := D) (c := c) (la := la') (ua := ua) (p := p) (w := y :: w)
        (by simp) R.range.2.1
      obtain ⟨s3, s4⟩ := s2 0 0
      have E2 := enc_sent h R C S s4
      obtain ⟨e', k2, m1, m2, m3, m4, m5⟩ := monitor_ok E2
      have hf' : compLoop n e' rest = .ok f := by
        rw [compLoop, R.upd, bind_ok, hwk, s1, bind_ok, bind_ok] at hf
        exact (congrArg (· >>= fun s => compLoop n s rest) m1).symm.trans hf
      obtain ⟨f', g', k3, f1, f2, f3, -⟩ := enc_ok n e' rest m3 m4 (by
          rintro rfl
          have hu : e'.updateAt = ua := by cases m2 <;> rfl
          rw [hu]
          rcases C with ⟨-, -, -, z, l', hz, -⟩ | ⟨h1, -⟩ | ⟨h1, -⟩
          · cases hz
          · exact h1
          · exact h1) (by omega)
      rw [hf'] at f1
      injection f1 with f1
      subst f1
      rw [hg] at f2
      injection f2 with f2
      subst f2
      have hk' : k = k1 ++ (k2 ++ k3) := by
        rw [f3, m5, s3, List.append_assoc, List.append_assoc] at hk
        exact (List.append_cancel_left hk).symm
      subst hk'
      obtain ⟨d', o', j1, j2, A⟩ := dec_sent B L R S ho
      obtain ⟨B2, L2⟩ := base_sent B R C S E2 A
      have hal : (e'.bitCount + k3.length) % 8 = 0 := by
        have := congrArg List.length f3
        rw [List.length_append, bits_length, octsBits_length] at this
        omega
      obtain ⟨d'', o'', i1, i2, B3, L3, i3⟩ := dec_changed B2 L2 (fun ht => A.upd ht) m3 m2 hal j1
      obtain ⟨r, r1, r2⟩ := sim n e' d'' rest m3 m4 B3 L3 (by omega) f g k3 hf' hg f3 o'' i1
      refine ⟨r, j2 r (i2 r r1), ?_⟩
      rw [r2, i3, A.total, R.split]
      simp

end Verif.V42
