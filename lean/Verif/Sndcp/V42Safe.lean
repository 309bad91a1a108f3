import Verif.Sndcp.V42Dec

/-!
# V.42bis: expansion of arbitrary data
-/
namespace Verif.V42

/-- Entries are at most `n7` octets deep. -/
def Ranked (D : Dict) (c1 n7 : Nat) (dep : Nat → Nat) : Prop :=
  ∀ e, 3 ≤ e → e < 4096 → e ≠ c1 → dep e ≤ n7 ∧ (((D e).parent = 0 ∧ dep e = 1) ∨ ((D e).parent ≠ 0 ∧ dep e = dep (D e).parent + 1))

theorem pathUp_ranked {D : Dict} {c1 n2 n7 : Nat} {dep : Nat → Nat} (w : DWF D c1 n2) (hr : Ranked D c1 n7 dep) :
    ∀ (n e : Nat), 3 ≤ e → e < 4096 → e ≠ c1 → dep e < n → ∃ l, pathUp D n e = .ok l ∧ l.length = dep e
  | 0, _, _, _, _, h => absurd h (Nat.not_lt_zero _)
  | n + 1, e, h1, h2, h3, h4 => by
    rw [pathUp, if_neg (by omega), if_neg (by omega)]
    rcases (hr e h1 h2 h3).2 with ⟨h5, h6⟩ | ⟨h5, h6⟩
    · rw [h5]
      obtain ⟨n, rfl⟩ : ∃ k, n = k + 1 := ⟨n - 1, by omega⟩
      rw [pathUp, if_pos rfl, bind_ok]
      exact ⟨_, rfl, by rw [h6]; rfl⟩
    · obtain ⟨h7, h8, h9⟩ := (w.parent h1 h2 h3).resolve_left h5
      obtain ⟨l, hl, hlen⟩ := pathUp_ranked w hr n (D e).parent h7 h8 h9 (by omega)
      rw [hl, bind_ok]
      exact ⟨_, rfl, by rw [h6, List.length_cons, hlen]⟩

/-- The decompressor between two steps. -/
structure Safe (d : Vs) : Prop where
  n2lo : 512 ≤ d.n2
  n2hi : d.n2 ≤ 4096
  n7lo : 6 ≤ d.n7
  n7hi : d.n7 ≤ 250
  wf : DWF d.dict d.c1 d.n2
  c2lo : 9 ≤ d.c2
  c2hi : d.c2 ≤ 12
  fl : d.flushed = 0
  bits : d.bitCount < d.c2
  la : d.lastAdded = 0 ∨ 259 ≤ d.lastAdded
  plain : d.lastMatched ≠ 0 → d.updateAt = 0
  code : d.transparent = false → d.lastMatched = 0
  rank : ∃ dep, Ranked d.dict d.c1 d.n7 dep ∧
    (d.updateAt = 0 ∨ (3 ≤ d.updateAt ∧ d.updateAt < 4096 ∧ d.updateAt ≠ d.c1 ∧ dep d.updateAt < d.n7)) ∧
    ((d.lastMatched = 0 ∧ d.str = []) ∨
      (3 ≤ d.lastMatched ∧ d.lastMatched < 4096 ∧ d.lastMatched ≠ d.c1 ∧ dep d.lastMatched = d.str.length ∧ d.str.length < d.n7))

theorem ranked_init (n7 : Nat) (h : 1 ≤ n7) : Ranked Dict.init 259 n7 (fun _ => 1) := fun _ _ _ _ => ⟨h, .inl ⟨rfl, rfl⟩⟩

theorem safe_initDict {s : Vs} (h2 : 512 ≤ s.n2) (h2' : s.n2 ≤ 4096) (h7 : 6 ≤ s.n7) (h7' : s.n7 ≤ 250) : Safe s.initDict :=
  ⟨h2, h2', h7, h7', dwf_init (by show 260 ≤ s.n2; omega) h2', by show 9 ≤ 9; omega, by show 9 ≤ 12; omega, rfl, by show 0 < 9; omega,
    .inl rfl, fun h => absurd rfl h, fun _ => rfl, fun _ => 1, ranked_init s.n7 (by omega), .inl rfl, .inl ⟨rfl, rfl⟩⟩

/-- An entry is added below an entry that is not too deep. -/
theorem add_ranked {D : Dict} {c1 n2 n7 : Nat} {dep : Nat → Nat} (w : DWF D c1 n2) (hr : Ranked D c1 n7 dep) {p : Nat} (hp : 3 ≤ p)
    (hp' : p < 4096) (hne : p ≠ c1) (hd : dep p < n7) (o : UInt8) :
    ∃ D' y dep', DWF D' y n2 ∧ Ranked D' y n7 dep' ∧ (∀ e, e ≠ c1 → dep' e = dep e) ∧
      ∀ s : Vs, s.dict = D → s.c1 = c1 → s.n2 = n2 → s.addOctet p o = .ok ({ s with dict := D', c1 := y }, c1) := by
  obtain ⟨D', y, hw, hpo, hx, hadd⟩ := addOctet_all w hp hp' hne o
  refine ⟨D', y, fun e => if e = c1 then dep p + 1 else dep e, hw, ?_, fun e he => if_neg he, hadd⟩
  intro e h1 h2 h3
  by_cases he : e = c1
  · subst he
    dsimp only
    rw [if_pos rfl, hx]
    refine ⟨by omega, .inr ⟨by omega, ?_⟩⟩
    rw [if_neg hne]
  · dsimp only
    rw [if_neg he, (hpo e he).1]
    have := hr e h1 h2 he
    refine ⟨this.1, ?_⟩
    rcases this.2 with h | ⟨h4, h5⟩
    · exact .inl h
    · refine .inr ⟨h4, ?_⟩
      rw [if_neg ((w.parent h1 h2 he).resolve_left h4).2.2]
      exact h5

/-- The dictionary is updated by an octet in transparent mode. -/
theorem update_safe {d : Vs} (h : Safe d) (o : UInt8) :
    ∃ D c la, d.update o = .ok { d with dict := D, c1 := c, lastAdded := la, updateAt := 0 } ∧
      Safe { d with dict := D, c1 := c, lastAdded := la, updateAt := 0 } := by
  obtain ⟨dep, hr, hU, hL⟩ := h.rank
  by_cases h0 : d.updateAt = 0
  · refine ⟨d.dict, d.c1, d.lastAdded, ?_, ⟨h.n2lo, h.n2hi, h.n7lo, h.n7hi, h.wf, h.c2lo, h.c2hi, h.fl, h.bits, h.la, fun _ => rfl, h.code,
      dep, hr, .inl rfl, hL⟩⟩
    rw [update_zero h0, ← h0]
  · obtain ⟨h1, h2, h3, h4⟩ := hU.resolve_left h0
    have hlm : d.lastMatched = 0 := Decidable.byContradiction fun hc => h0 (h.plain hc)
    have hs : d.str = [] := by
      rcases hL with h | h
      · exact h.2
      · omega
    unfold Vs.update
    rw [if_pos h0]
    obtain ⟨r, hrr, -⟩ := match_ok h.wf h1 h2 o
    rw [hrr, bind_ok]
    by_cases hr0 : r = 0
    · rw [if_pos hr0]
      obtain ⟨D', y, dep', hw', hr', -, hadd⟩ := add_ranked h.wf hr h1 h2 h3 h4 o
      refine ⟨D', y, d.c1, by rw [hadd d rfl rfl rfl, bind_ok], ⟨h.n2lo, h.n2hi, h.n7lo, h.n7hi, hw', h.c2lo, h.c2hi, h.fl, h.bits,
        .inr h.wf.c1lo, fun _ => rfl, h.code, dep', hr', .inl rfl, .inl ⟨hlm, hs⟩⟩⟩
    · rw [if_neg hr0]
      exact ⟨d.dict, d.c1, d.lastAdded, rfl, ⟨h.n2lo, h.n2hi, h.n7lo, h.n7hi, h.wf, h.c2lo, h.c2hi, h.fl, h.bits, h.la, fun _ => rfl, h.code,
        dep, hr, .inl rfl, hL⟩⟩

theorem plainRound_safe {d : Vs} (h : Safe d) (ht : d.transparent = true) (o : UInt8) :
    ∃ d' t, d.plainRound o = .ok (d', t) ∧ Safe d' ∧ d'.transparent = true ∧
      (t = false → d'.lastMatched = 0) ∧ (d.lastMatched = 0 → t = true) := by
  obtain ⟨D, c, la, hu, h1⟩ := update_safe h o
  unfold Vs.plainRound
  rw [hu, bind_ok]
  dsimp only
  obtain ⟨dep, hr, -, hL⟩ := h1.rank
  dsimp only at hr hL
  have hlo := h1.wf.c1lo
  have hhi := h1.wf.c1hi
  have hw := h1.wf
  have n7lo := h1.n7lo
  have n7hi := h1.n7hi
  dsimp only at hlo hhi hw n7lo n7hi
  -- the match
  obtain ⟨r, hm, hmr⟩ : ∃ r, matchOctet D d.lastMatched o = .ok r ∧ ((r = 0 ∧ d.lastMatched ≠ 0) ∨ (3 ≤ r ∧ r < 4096 ∧ r ≠ c ∧ dep r = d.str.length + 1 ∧
      (d.lastMatched = 0 → r < 259))) := by
    have ho := o.toNat_lt
    rcases hL with ⟨l1, l2⟩ | ⟨l1, l2, l3, l4, l5⟩
    · rw [l1, match_root]
      refine ⟨_, rfl, .inr ⟨by omega, by omega, by omega, ?_, fun _ => by omega⟩⟩
      obtain ⟨K, f⟩ := hw.full
      have hp := (f.root (o.toNat + 3) (by omega) (by omega)).1
      rcases (hr (o.toNat + 3) (by omega) (by omega) (by omega)).2 with h | h
      · rw [h.2, l2]; rfl
      · exact absurd hp h.1
    · obtain ⟨r, hm, hx⟩ := match_ok hw l1 l2 o
      refine ⟨r, hm, ?_⟩
      rcases hx with hx | ⟨x1, x2, x3, x4, -⟩
      · exact .inl ⟨hx, by omega⟩
      · have h2 := h1.n2hi
        dsimp only at h2
        refine .inr ⟨by omega, by omega, x3, ?_, fun h => by omega⟩
        rcases (hr r (by omega) (by omega) x3).2 with h | h
        · rw [x4] at h; omega
        · rw [h.2, x4, l4]
  rw [hm, bind_ok]
  by_cases hr0 : r = 0
  · rw [if_pos hr0]
    have hne : d.lastMatched ≠ 0 := by
      rcases hmr with h | h
      · exact h.2
      · omega
    obtain ⟨b, u, e1, -⟩ := sendString_ok { d with dict := D, c1 := c, lastAdded := la, updateAt := d.lastMatched }
    rw [e1]
    have hlr := hL.resolve_left (fun h => hne h.1)
    refine ⟨_, _, rfl, ⟨h1.n2lo, h1.n2hi, h1.n7lo, h1.n7hi, h1.wf, h1.c2lo, h1.c2hi, rfl, h1.bits, h1.la, fun h => absurd rfl h, fun _ => rfl, dep, hr,
      .inr ⟨hlr.1, hlr.2.1, hlr.2.2.1, by dsimp only; omega⟩, .inl ⟨rfl, rfl⟩⟩, ht, fun _ => rfl, fun h => absurd h hne⟩
  · rw [if_neg hr0]
    have hmr' := hmr.resolve_left (fun h => hr0 h.1)
    by_cases hla : r = la
    · rw [if_pos hla]
      obtain ⟨b, u, e1, -⟩ := sendString_ok { d with dict := D, c1 := c, lastAdded := 0, updateAt := 0 }
      rw [e1]
      refine ⟨_, _, rfl, ⟨h1.n2lo, h1.n2hi, h1.n7lo, h1.n7hi, h1.wf, h1.c2lo, h1.c2hi, rfl, h1.bits, .inl rfl, fun _ => rfl, fun _ => rfl, dep, hr,
        .inl rfl, .inl ⟨rfl, rfl⟩⟩, ht, fun _ => rfl, fun h => ?_⟩
      have := h1.la
      dsimp only at this
      have := hmr'.2.2.2.2 h
      omega
    · rw [if_neg hla]
      have hsl : d.str.length < d.n7 := by
        rcases hL with ⟨-, l2⟩ | ⟨-, -, -, -, l5⟩
        · rw [l2, List.length_nil]; omega
        · exact l5
      rw [if_neg (by omega)]
      have hfl : d.flushed = 0 := h.fl
      by_cases h7 : d.str.length + 1 + d.flushed = d.n7
      · rw [if_pos h7]
        obtain ⟨b, u, e1, -⟩ := sendString_ok { d with dict := D, c1 := c, lastAdded := la, updateAt := 0, lastMatched := r, str := d.str ++ [o] }
        rw [e1]
        exact ⟨_, _, rfl, ⟨h1.n2lo, h1.n2hi, h1.n7lo, h1.n7hi, h1.wf, h1.c2lo, h1.c2hi, rfl, h1.bits, h1.la, fun _ => rfl, fun _ => rfl, dep, hr,
          .inl rfl, .inl ⟨rfl, rfl⟩⟩, ht, fun h => (by cases h), fun _ => rfl⟩
      · rw [if_neg h7]
        refine ⟨_, _, rfl, ⟨h1.n2lo, h1.n2hi, h1.n7lo, h1.n7hi, h1.wf, h1.c2lo, h1.c2hi, h.fl, h1.bits, h1.la, fun _ => rfl,
          fun hf => (by rw [ht] at hf; cases hf), dep, hr, .inl rfl, .inr ⟨hmr'.1, hmr'.2.1, hmr'.2.2.1, ?_, ?_⟩⟩, ht, fun h => (by cases h), fun _ => rfl⟩
        · dsimp only; rw [hmr'.2.2.2.1, List.length_append]; rfl
        · dsimp only; rw [List.length_append, List.length_singleton]; omega

theorem plainOctet_safe {d : Vs} (h : Safe d) (ht : d.transparent = true) (o : UInt8) :
    ∃ d', d.plainOctet o = .ok (d', true) ∧ Safe d' ∧ d'.transparent = true := by
  obtain ⟨d1, t, e1, h1, h2, h3, -⟩ := plainRound_safe h ht o
  unfold Vs.plainOctet
  rw [e1, bind_ok]
  cases t with
  | true => exact ⟨d1, rfl, h1, h2⟩
  | false =>
    obtain ⟨d2, t2, e2, h4, h5, -, h6⟩ := plainRound_safe h1 h2 o
    obtain rfl := h6 (h3 rfl)
    exact ⟨d2, e2, h4, h5⟩

theorem Safe.setEsc {d : Vs} (h : Safe d) (a : Bool) (E : UInt8) : Safe { d with escaped := a, esc := E } :=
  ⟨h.n2lo, h.n2hi, h.n7lo, h.n7hi, h.wf, h.c2lo, h.c2hi, h.fl, h.bits, h.la, h.plain, h.code, h.rank⟩

theorem plainStep_safe {d : Vs} (h : Safe d) (ht : d.transparent = true) (o : UInt8) :
    (∀ l, d.plainStep o l = .fail) ∨ ∃ d', Safe d' ∧ ∀ l, d.plainStep o l = .ok (d', l) := by
  obtain ⟨dep, hr, hU, hL⟩ := h.rank
  by_cases he : d.escaped = true
  · by_cases h0 : o = 0
    · right
      obtain ⟨b, u, e1, -⟩ := sendString_ok { d with escaped := false }
      refine ⟨_, ?_, fun l => by unfold Vs.plainStep; rw [if_pos he, if_pos h0, e1]⟩
      · refine ⟨h.n2lo, h.n2hi, h.n7lo, h.n7hi, h.wf, h.c2lo, h.c2hi, rfl, h.bits, h.la, fun h => absurd rfl h, fun _ => rfl, dep, hr, ?_, .inl ⟨rfl, rfl⟩⟩
        rcases hL with ⟨l1, l2⟩ | ⟨l1, l2, l3, l4, l5⟩
        · exact .inl l1
        · exact .inr ⟨l1, l2, l3, by dsimp only; omega⟩
    · by_cases h1 : o = 1
      · right
        obtain ⟨d', e1, h2, h3⟩ := plainOctet_safe (h.setEsc false (d.esc + 51)) ht d.esc
        refine ⟨d', h2, fun l => ?_⟩
        unfold Vs.plainStep
        rw [if_pos he, if_neg h0, if_pos h1, e1, bind_ok]
        rfl
      · by_cases h2 : o = 2
        · right
          obtain ⟨b, u, e1, -⟩ := sendString_ok { d with escaped := false }
          refine ⟨_, safe_initDict (s := { d with escaped := false }.sendString) ?_ ?_ ?_ ?_,
            fun l => by unfold Vs.plainStep; rw [if_pos he, if_neg h0, if_neg h1, if_pos h2]⟩
          · rw [e1]; exact h.n2lo
          · rw [e1]; exact h.n2hi
          · rw [e1]; exact h.n7lo
          · rw [e1]; exact h.n7hi
        · left
          intro l
          unfold Vs.plainStep
          rw [if_pos he, if_neg h0, if_neg h1, if_neg h2]
  · right
    by_cases h0 : o = d.esc
    · exact ⟨{ d with escaped := true }, h.setEsc true d.esc, fun l => by unfold Vs.plainStep; rw [if_neg he, if_pos h0]⟩
    · obtain ⟨d', e1, h2, h3⟩ := plainOctet_safe h ht o
      refine ⟨d', h2, fun l => ?_⟩
      unfold Vs.plainStep
      rw [if_neg he, if_neg h0, e1, bind_ok]
      rfl

/-- The octets that make up a codeword are taken. -/
theorem fill_taken : ∀ (l : List UInt8) (s : Vs), s.c2 ≤ 12 → s.bitCount < s.c2 + 8 →
    ∃ b n c l', l = c ++ l' ∧ (∀ k, k <+: l' → fill s (c ++ k) = .ok ({ s with bitBuf := b, bitCount := n }, k)) ∧
      (s.c2 ≤ n ∨ l' = []) ∧ n < s.c2 + 8 ∧ (l ≠ [] → s.bitCount < s.c2 → c ≠ [])
  | [], s, _, hw => ⟨s.bitBuf, s.bitCount, [], [], rfl, fun k hk => by rw [List.prefix_nil.mp hk]; rfl, .inr rfl, hw, fun h => absurd rfl h⟩
  | o :: l, s, hc, hw => by
    by_cases hlt : s.bitCount < s.c2
    · have ho := o.toNat_lt
      have h31 : o.toNat <<< s.bitCount < 2147483648 := by
        rw [Nat.shiftLeft_eq]
        calc o.toNat * 2 ^ s.bitCount < 2 ^ 8 * 2 ^ s.bitCount := Nat.mul_lt_mul_of_pos_right ho (Nat.two_pow_pos _)
          _ = 2 ^ (8 + s.bitCount) := by rw [Nat.pow_add]
          _ ≤ 2 ^ 31 := Nat.pow_le_pow_right (by omega) (by omega)
      obtain ⟨b, n, c, l', e0, e1, e3, e4, -⟩ := fill_taken l { s with bitBuf := s.bitBuf ||| o.toNat <<< s.bitCount, bitCount := s.bitCount + 8 } hc
        (by show s.bitCount + 8 < s.c2 + 8; omega)
      refine ⟨b, n, o :: c, l', by rw [e0]; rfl, fun k hk => ?_, e3, e4, fun _ _ h => (by cases h)⟩
      rw [List.cons_append, fill, if_pos hlt, if_neg (by omega)]; exact e1 k hk
    · refine ⟨s.bitBuf, s.bitCount, [], o :: l, rfl, fun k _ => ?_, .inl (by omega), hw, fun _ h => absurd h hlt⟩
      cases k with
      | nil => rfl
      | cons a k => rw [List.nil_append, fill, if_neg hlt]

theorem learn_safe {d : Vs} (h : Safe d) {dep : Nat → Nat} (hr : Ranked d.dict d.c1 d.n7 dep)
    (hU : d.updateAt = 0 ∨ (3 ≤ d.updateAt ∧ d.updateAt < 4096 ∧ d.updateAt ≠ d.c1 ∧ dep d.updateAt < d.n7))
    (str : List UInt8) {code : Nat} (hne : code ≠ d.c1) :
    ({ d with str := str }.learn code = .fail) ∨
    ∃ D c la dep', { d with str := str }.learn code = .ok { d with str := str, dict := D, c1 := c, lastAdded := la } ∧
      DWF D c d.n2 ∧ Ranked D c d.n7 dep' ∧ code ≠ c ∧ (la = 0 ∨ 259 ≤ la) ∧ dep' code = dep code := by
  unfold Vs.learn
  by_cases h0 : d.updateAt = 0
  · rw [if_neg (fun hc => hc h0)]
    exact .inr ⟨d.dict, d.c1, d.lastAdded, dep, rfl, h.wf, hr, hne, h.la, rfl⟩
  · rw [if_pos h0]
    obtain ⟨h1, h2, h3, h4⟩ := hU.resolve_left h0
    obtain ⟨r, hm, -⟩ := match_ok h.wf h1 h2 (str.headD 0)
    rw [hm, bind_ok]
    by_cases hr0 : r = 0
    · rw [if_pos hr0]
      obtain ⟨D', y, dep', hw', hr', hk, hadd⟩ := add_ranked h.wf hr h1 h2 h3 h4 (str.headD 0)
      rw [hadd { d with str := str } rfl rfl rfl, bind_ok]
      dsimp only
      by_cases hy : code = y
      · rw [if_pos hy]; exact .inl rfl
      · rw [if_neg hy]
        exact .inr ⟨D', y, d.c1, dep', rfl, hw', hr', hy, .inr h.wf.c1lo, hk _ hne⟩
    · rw [if_neg hr0]
      by_cases hrl : r = d.lastAdded
      · rw [if_pos hrl]
        exact .inr ⟨d.dict, d.c1, 0, dep, rfl, h.wf, hr, hne, .inl rfl, rfl⟩
      · rw [if_neg hrl]
        exact .inr ⟨d.dict, d.c1, d.lastAdded, dep, rfl, h.wf, hr, hne, h.la, rfl⟩

theorem codeword_safe {d : Vs} (h : Safe d) (ht : d.transparent = false) {code : Nat} (h3 : 3 ≤ code) (h4 : code < 4096) :
    d.codeword code = .fail ∨ ∃ d', d.codeword code = .ok d' ∧ Safe d' := by
  unfold Vs.codeword
  by_cases hne : code = d.c1
  · rw [if_pos hne]; exact .inl rfl
  · rw [if_neg hne]
    obtain ⟨dep, hr, hU, hL⟩ := h.rank
    have hlm := h.code ht
    have hstr : d.str = [] := by
      rcases hL with h | h
      · exact h.2
      · omega
    have n7hi := h.n7hi
    have hdc := (hr code h3 h4 hne).1
    obtain ⟨l, hl, hlen⟩ := pathUp_ranked h.wf hr 4097 code h3 h4 hne (by omega)
    have hex : d.expand code = .ok { d with str := l.reverse } := by
      unfold Vs.expand
      rw [hl, bind_ok, hstr, if_neg (by rw [List.length_nil]; omega)]
      rfl
    rw [hex, bind_ok]
    rcases learn_safe h hr hU l.reverse hne with hf | ⟨D, c, la, dep', e1, hw', hr', hc', hla', hdep⟩
    · rw [hf]; exact .inl rfl
    · rw [e1, bind_ok]
      dsimp only
      obtain ⟨b, u, e2, -⟩ := sendString_ok { d with str := l.reverse, dict := D, c1 := c, lastAdded := la, updateAt := if l.reverse.length + d.flushed = d.n7 then 0 else code, esc := escAfter d.esc l.reverse }
      rw [e2]
      refine .inr ⟨_, rfl, ⟨h.n2lo, h.n2hi, h.n7lo, h.n7hi, hw', h.c2lo, h.c2hi, rfl, h.bits, hla', fun hx => absurd hlm hx, fun _ => hlm, dep', hr', ?_, .inl ⟨hlm, rfl⟩⟩⟩
      dsimp only
      rw [List.length_reverse, hlen, h.fl, Nat.add_zero]
      by_cases h7 : dep code = d.n7
      · rw [if_pos h7]; exact .inl rfl
      · rw [if_neg h7]; exact .inr ⟨h3, h4, hc', by rw [hdep]; omega⟩

/-- What follows on the octets of a codeword. -/
theorem codeStep_of {d t : Vs} {l l' : List UInt8} (h : fill d l = .ok (t, l')) :
    d.codeStep l = if t.bitCount < t.c2 then .ok (t, l')
      else if 31 ≤ t.c2 then .ub .shift
      else ((if t.bitBuf % 2 ^ t.c2 % 65536 < 3 then
          { t with bitBuf := t.bitBuf >>> t.c2, bitCount := t.bitCount - t.c2 }.control (t.bitBuf % 2 ^ t.c2 % 65536)
        else { t with bitBuf := t.bitBuf >>> t.c2, bitCount := t.bitCount - t.c2 }.codeword (t.bitBuf % 2 ^ t.c2 % 65536)) >>=
          fun s => .ok (s, l')) := by
  unfold Vs.codeStep
  rw [h, bind_ok]
  dsimp only
  split
  · rfl
  · split
    · rfl
    · split <;> rfl

/-- A codeword is read in compressed mode. -/
theorem codeStep_safe {d : Vs} (h : Safe d) (ht : d.transparent = false) {l : List UInt8} (hl : l ≠ []) :
    d.codeStep l = .fail ∨ ∃ d' c l', l = c ++ l' ∧ c ≠ [] ∧ (∀ k, k <+: l' → d.codeStep (c ++ k) = .ok (d', k)) ∧ (Safe d' ∨ 12 < d'.c2) := by
  have c2hi := h.c2hi
  have c2lo := h.c2lo
  have hb := h.bits
  obtain ⟨b, n, c, l', e0, e1, e3, e4, e5⟩ := fill_taken l d h.c2hi (by omega)
  have hc := e5 hl hb
  have e2 := fun k hk => codeStep_of (e1 k hk)
  dsimp only at e2
  by_cases hn : n < d.c2
  · refine .inr ⟨_, c, l', e0, hc, fun k hk => by rw [e2 k hk, if_pos hn], .inl ?_⟩
    exact ⟨h.n2lo, h.n2hi, h.n7lo, h.n7hi, h.wf, h.c2lo, h.c2hi, h.fl, hn, h.la, h.plain, h.code, h.rank⟩
  · simp only [if_neg hn, if_neg (show ¬ 31 ≤ d.c2 by omega)] at e2
    have hcode : b % 2 ^ d.c2 % 65536 < 4096 := by
      have h1 : b % 2 ^ d.c2 < 2 ^ d.c2 := Nat.mod_lt _ (Nat.two_pow_pos _)
      have h2 : 2 ^ d.c2 ≤ 2 ^ 12 := Nat.pow_le_pow_right (by omega) c2hi
      rw [Nat.mod_eq_of_lt (by omega)]
      omega
    generalize b % 2 ^ d.c2 % 65536 = code at hcode e2
    have hs : Safe { d with bitBuf := b >>> d.c2, bitCount := n - d.c2 } :=
      ⟨h.n2lo, h.n2hi, h.n7lo, h.n7hi, h.wf, h.c2lo, h.c2hi, h.fl, by dsimp only; omega, h.la, h.plain, h.code, h.rank⟩
    generalize hd1 : ({ d with bitBuf := b >>> d.c2, bitCount := n - d.c2 } : Vs) = d1 at hs e2
    have ht1 : d1.transparent = false := by rw [← hd1]; exact ht
    have key : (if code < 3 then d1.control code else d1.codeword code) = .fail ∨
        ∃ d', (if code < 3 then d1.control code else d1.codeword code) = .ok d' ∧ (Safe d' ∨ 12 < d'.c2) := by
      have c2lo := hs.c2lo
      have c2hi := hs.c2hi
      have hb := hs.bits
      by_cases h3 : code < 3
      · rw [if_pos h3]
        unfold Vs.control
        by_cases k0 : code = 0
        · rw [if_pos k0]
          obtain ⟨dep, hr, hU, hL⟩ := hs.rank
          have hlm := hs.code ht1
          have hstr : d1.str = [] := by
            rcases hL with h | h
            · exact h.2
            · omega
          exact .inr ⟨_, rfl, .inl ⟨hs.n2lo, hs.n2hi, hs.n7lo, hs.n7hi, hs.wf, hs.c2lo, hs.c2hi, hs.fl, by dsimp only; omega, .inl rfl,
            fun hx => absurd rfl hx, fun _ => rfl, dep, hr, hU, .inl ⟨rfl, hstr⟩⟩⟩
        · rw [if_neg k0]
          by_cases k1 : code = 1
          · rw [if_pos k1]
            exact .inr ⟨_, rfl, .inl ⟨hs.n2lo, hs.n2hi, hs.n7lo, hs.n7hi, hs.wf, hs.c2lo, hs.c2hi, hs.fl, by dsimp only; omega, hs.la, hs.plain, hs.code, hs.rank⟩⟩
          · rw [if_neg k1]
            by_cases k2 : d1.n2 >>> 3 < d1.c2 + 1
            · rw [if_pos k2]; exact .inl rfl
            · rw [if_neg k2]
              refine .inr ⟨_, rfl, ?_⟩
              by_cases k3 : d1.c2 = 12
              · right; dsimp only; omega
              · left
                exact ⟨hs.n2lo, hs.n2hi, hs.n7lo, hs.n7hi, hs.wf, by dsimp only; omega, by dsimp only; omega, hs.fl, by dsimp only; omega, hs.la, hs.plain, hs.code, hs.rank⟩
      · rw [if_neg h3]
        rcases codeword_safe hs ht1 (by omega : 3 ≤ code) hcode with hf | ⟨d', e, hsd⟩
        · exact .inl hf
        · exact .inr ⟨d', e, .inl hsd⟩
    rcases key with hf | ⟨d', e, hsd⟩
    · left
      rw [e0, e2 l' (List.prefix_refl _), hf]; rfl
    · exact .inr ⟨d', c, l', e0, hc, fun k hk => by rw [e2 k hk, e]; rfl, hsd⟩

/-- Expansion ends well, reports an error, or has widened the codewords beyond 12 bits on the way. -/
theorem dec_safe : ∀ (n m : Nat) (d : Vs) (l : List UInt8), Safe d → l.length ≤ n → n ≤ m →
    (∃ r, decLoop m d l = .ok r) ∨ decLoop m d l = .fail ∨ ∃ c l' r, l = c ++ l' ∧ DecTo d c r ∧ 12 < r.c2
  | n, m, d, [], _, _, _ => .inl ⟨d, by cases m <;> rfl⟩
  | 0, _, _, _ :: _, _, h, _ => absurd h (Nat.not_succ_le_zero _)
  | n + 1, m, d, o :: l, h, hlen, hm => by
    obtain ⟨m, rfl⟩ : ∃ k, m = k + 1 := ⟨m - 1, by omega⟩
    rw [List.length_cons] at hlen
    have key : (if d.transparent then d.plainStep o l else d.codeStep (o :: l)) = .fail ∨
        ∃ d' c l', l = c ++ l' ∧
          (∀ k, k <+: l' → (if d.transparent then d.plainStep o (c ++ k) else d.codeStep (o :: (c ++ k))) = .ok (d', k)) ∧ (Safe d' ∨ 12 < d'.c2) := by
      by_cases ht : d.transparent = true
      · simp only [if_pos ht]
        rcases plainStep_safe h ht o with hf | ⟨d', hs, e⟩
        · exact .inl (hf l)
        · exact .inr ⟨d', [], l, rfl, fun k _ => e k, .inl hs⟩
      · simp only [if_neg ht]
        have ht' : d.transparent = false := by simpa using ht
        rcases codeStep_safe h ht' (l := o :: l) (fun h => (by cases h)) with hf | ⟨d', c, l', e0, hc, e1, hs⟩
        · exact .inl hf
        · cases c with
          | nil => exact absurd rfl hc
          | cons a c =>
            rw [List.cons_append] at e0
            obtain ⟨rfl, e0'⟩ := List.cons.inj e0
            exact .inr ⟨d', c, l', e0', e1, hs⟩
    rcases key with hf | ⟨d', c, l', e0, e1, hs⟩
    · right; left
      rw [decLoop]
      split at hf
      · rw [if_pos (by assumption), hf]; rfl
      · rw [if_neg (by assumption), hf]; rfl
    · have hl' : l'.length ≤ l.length := by rw [e0, List.length_append]; omega
      have e2 := e1 l' (List.prefix_refl _)
      rw [← e0] at e2
      have e3 : decLoop (m + 1) d (o :: l) = decLoop m d' l' := by
        rw [decLoop]
        split at e2
        · rw [if_pos (by assumption), e2]; rfl
        · rw [if_neg (by assumption), e2]; rfl
      rw [e3]
      rcases hs with hs | hs
      · rcases dec_safe n m d' l' hs (by omega) (by omega) with h1 | h1 | ⟨c', l'', r, h1, h2, h3⟩
        · exact .inl h1
        · exact .inr (.inl h1)
        · refine .inr (.inr ⟨o :: (c ++ c'), l'', r, by rw [e0, h1]; simp, ?_, h3⟩)
          exact decTo_step (e1 c' ⟨l'', h1.symm⟩) (by rw [List.length_append]; omega) h2
      · refine .inr (.inr ⟨o :: c, l', d', by rw [e0]; rfl, ?_, hs⟩)
        have e4 := e1 [] (List.nil_prefix)
        rw [List.append_nil] at e4
        exact decTo_step e4 (Nat.zero_le _) (decTo_nil d')

end Verif.V42
