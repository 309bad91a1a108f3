import Verif.Sndcp.V42Send

/-!
# V.42bis: the decompressor follows the compressor
-/
namespace Verif.V42

/-- Between two strings: what the states have in common. -/
structure Base (e d : Vs) : Prop where
  n2lo : 512 ≤ e.n2
  n2hi : e.n2 ≤ 4096
  n7lo : 6 ≤ e.n7
  n7hi : e.n7 ≤ 250
  n2 : d.n2 = e.n2
  n7 : d.n7 = e.n7
  dict : d.dict = e.dict
  c1 : d.c1 = e.c1
  c2 : d.c2 = e.c2
  c3 : d.c3 = e.c3
  pow : e.c3 = 2 ^ e.c2
  c2lo : 9 ≤ e.c2
  c2hi : e.c2 ≤ 12
  esc : d.esc = e.esc
  mode : d.transparent = e.transparent
  escaped : d.escaped = false
  dfl : d.flushed = 0
  wf : DWF e.dict e.c1 e.n2
  elm : e.lastMatched = 0
  estr : e.str = []
  efl : e.flushed = 0
  eg : e.Good
  dg : d.Good
  ebc : e.transparent = true → e.bitCount = 0
  dbc : e.transparent = true → d.bitCount = 0
  ela : e.lastAdded = 0 ∨ 259 ≤ e.lastAdded
  dplain : d.lastMatched ≠ 0 → d.updateAt = 0
  dstr : d.lastMatched = 0 → d.str = []
  dcode : e.transparent = false → d.lastMatched = 0

/-- The entry under which the decompressor is going to add. -/
def Vs.at (d : Vs) : Nat := if d.lastMatched ≠ 0 then d.lastMatched else d.updateAt

/-- The next octet is added below the same entry. -/
def LinkAdd (e d : Vs) (y : UInt8) : Prop :=
  e.updateAt = d.at ∧ e.lastAdded = d.lastAdded ∧ (d.at ≠ 0 → 3 ≤ d.at ∧ d.at < e.n2 ∧ d.at ≠ e.c1 ∧ matchOctet e.dict d.at y = .ok 0)

/-- The string was cut because it would have used the entry added last. -/
def LinkHit (e d : Vs) (y : UInt8) : Prop :=
  e.updateAt = 0 ∧ e.lastAdded = 0 ∧ d.at ≠ 0 ∧ ∃ a, a ≠ 0 ∧ matchOctet e.dict d.at y = .ok a ∧
    ((d.lastMatched ≠ 0 ∧ d.lastAdded = a) ∨ (d.lastMatched = 0 ∧ (d.lastAdded = 0 ∨ (e.transparent = false ∧ d.lastAdded = a))))

/-- Between two strings, with this data to come. -/
structure Link (e d : Vs) (l : List UInt8) : Prop where
  fin : l = [] → e.updateAt = 0
  next : ∀ y l', l = y :: l' → LinkAdd e d y ∨ LinkHit e d y

/-- No change of the mode is due. -/
def Stable (e : Vs) : Prop := (e.transparent = true → 2037 ≤ e.perf) ∧ (e.transparent = false → e.perf ≤ 2048)

theorem addOctet_all {D : Dict} {c1 n2 : Nat} (w : DWF D c1 n2) {p : Nat} (hp : 3 ≤ p) (hp' : p < 4096) (hne : p ≠ c1) (o : UInt8) :
    ∃ D' y, DWF D' y n2 ∧ (∀ e, e ≠ c1 → (D' e).parent = (D e).parent ∧ (D' e).octet = (D e).octet) ∧ (D' c1).parent = p ∧
      ∀ s : Vs, s.dict = D → s.c1 = c1 → s.n2 = n2 → s.addOctet p o = .ok ({ s with dict := D', c1 := y }, c1) := by
  obtain ⟨D', y, h1, h2, h3, h4⟩ := addOctet_ok (s := { (Vs.init n2 0) with dict := D, c1 := c1 }) w hp hp' hne o
  refine ⟨D', y, h2, h3, h4, ?_⟩
  rintro s rfl rfl rfl
  unfold Vs.addOctet at h1 ⊢
  split at h1
  · cases h1
  · rw [if_neg (by assumption)]
    obtain ⟨x, hx, h1⟩ := bind_eq_ok h1
    obtain ⟨E, hE, h1⟩ := bind_eq_ok h1
    have hx' : findFree (link s.dict s.c1 p o) s.n2 65536 s.c1 = .ok x := hx
    have hE' : detach (link s.dict s.c1 p o) x = .ok E := hE
    rw [hx', bind_ok, hE', bind_ok]
    injection h1 with h1
    injection h1 with h1 _
    injection h1
    subst_vars
    rfl

theorem set_zero {e : Vs} (h1 : e.updateAt = 0) (h2 : e.lastAdded = 0) :
    { e with dict := e.dict, c1 := e.c1, lastAdded := 0, updateAt := 0 } = e := by
  cases e; dsimp only at h1 h2; subst h1 h2; rfl

theorem sendString_ok (s : Vs) : ∃ b u, s.sendString = { s with str := [], flushed := 0, buf := b, out := u } ∧
    u ++ b = s.out ++ s.buf ++ s.str := by
  unfold Vs.sendString
  have p := pushOctets_eq s s.str
  generalize Vs.pushOctets s s.str = t at p
  obtain ⟨b, u, rfl⟩ : ∃ b u, t = { s with buf := b, out := u } := ⟨_, _, p.1⟩
  exact ⟨b, u, rfl, p.2⟩

/-- The first round of the decompressor on the octet after a string. -/
theorem plainRound_cut {d : Vs} {o : UInt8} {c : Nat} (hu : d.updateAt = 0) (hc : matchOctet d.dict d.lastMatched o = .ok c)
    (h : c = 0 ∨ c = d.lastAdded) :
    ∃ b u, d.plainRound o = .ok ({ d with updateAt := if c = 0 then d.lastMatched else 0, lastAdded := if c = 0 then d.lastAdded else 0, lastMatched := 0, str := [], flushed := 0, buf := b, out := u }, false) ∧
      u ++ b = d.out ++ d.buf ++ d.str := by
  unfold Vs.plainRound
  rw [update_zero hu, bind_ok, hc, bind_ok]
  by_cases h0 : c = 0
  · rw [if_pos h0, if_pos h0, if_pos h0]
    obtain ⟨b, u, h1, h2⟩ := sendString_ok { d with updateAt := d.lastMatched }
    rw [h1]
    exact ⟨b, u, rfl, h2⟩
  · rw [if_neg h0, if_neg h0, if_neg h0, if_pos (h.resolve_left h0)]
    obtain ⟨b, u, h1, h2⟩ := sendString_ok { d with lastAdded := 0 }
    rw [h1]
    refine ⟨b, u, ?_, h2⟩
    rw [← hu]

/-- A round that adds an entry, or not, and then begins a string. -/
theorem plainRound_first {d : Vs} {o : UInt8} {D : Dict} {c la : Nat}
    (hu : d.update o = .ok { d with dict := D, c1 := c, lastAdded := la, updateAt := 0 }) (hla : la = 0 ∨ 259 ≤ la)
    (hm : d.lastMatched = 0) (hs : d.str = []) (hf : d.flushed = 0) (h7 : 6 ≤ d.n7) :
    d.plainRound o = .ok ({ d with dict := D, c1 := c, lastAdded := la, updateAt := 0, lastMatched := o.toNat + 3, str := [o] }, true) := by
  unfold Vs.plainRound
  rw [hu, bind_ok]
  dsimp only
  have ho := o.toNat_lt
  rw [hm, match_root, bind_ok, if_neg (by omega), if_neg (by omega), hs, if_neg (by decide), hf,
    if_neg (by simp only [List.length_nil]; omega)]
  rfl

/-- The dictionary after the octet that follows a string, at both ends. -/
theorem sync {e d : Vs} {y : UInt8} {l : List UInt8} (B : Base e d) (L : Link e d (y :: l)) :
    ∃ D c la, e.update y = .ok { e with dict := D, c1 := c, lastAdded := la, updateAt := 0 } ∧ DWF D c e.n2 ∧ (la = 0 ∨ 259 ≤ la) ∧
      (e.transparent = true → ∀ E : UInt8, ∃ b u, Vs.plainOctet { d with escaped := false, esc := E } y =
        .ok ({ d with dict := D, c1 := c, lastAdded := la, updateAt := 0, lastMatched := y.toNat + 3, str := [y], buf := b, out := u, flushed := 0, esc := E, escaped := false }, true) ∧
        u ++ b = d.out ++ d.buf ++ d.str) ∧
      (e.transparent = false → ∀ w p, Steps D la 0 (y :: w) p → (y :: w).length ≤ e.n7 → ∀ c2 c3 bb bc, ∃ b u,
        Vs.codeword { d with c2 := c2, c3 := c3, bitBuf := bb, bitCount := bc } p =
        .ok { d with c2 := c2, c3 := c3, bitBuf := bb, bitCount := bc, dict := D, c1 := c, lastAdded := la, updateAt := if (y :: w).length = e.n7 then 0 else p, esc := escAfter d.esc (y :: w), str := [], flushed := 0, buf := b, out := u } ∧
        u ++ b = d.out ++ d.buf ++ d.str ++ y :: w) := by
  -- expansion of a codeword of the new dictionary with the old one
  have hexp : ∀ (D : Dict) (c la : Nat), DWF D c e.n2 → (∀ x, x ≠ la → (d.dict x).parent = (D x).parent ∧ (d.dict x).octet = (D x).octet) →
      d.str = [] → ∀ w p, Steps D la 0 (y :: w) p → (y :: w).length ≤ e.n7 → ∀ c2 c3 bb bc,
      Vs.expand { d with c2 := c2, c3 := c3, bitBuf := bb, bitCount := bc } p =
        .ok { d with c2 := c2, c3 := c3, bitBuf := bb, bitCount := bc, str := y :: w } := by
    intro D c la hD h0 hs w p st hl c2 c3 bb bc
    have h := pathUp_of_steps hD h0 st (.inl rfl) (n := 1) (u := []) (by rw [pathUp, if_pos rfl])
    have h7 := B.n7hi
    have h := pathUp_mono (m := 4097) (by omega) h
    unfold Vs.expand
    dsimp only
    rw [h, bind_ok, hs, if_neg (by simp at hl ⊢; omega)]
    simp
  -- the rest of `codeword`
  have hcw : ∀ (D : Dict) (c la : Nat), DWF D c e.n2 → (la = 0 ∨ 259 ≤ la) →
      (∀ x, x ≠ la → (d.dict x).parent = (D x).parent ∧ (d.dict x).octet = (D x).octet) → (e.c1 = c ∨ e.c1 = la) → d.str = [] →
      (∀ w p, Steps D la 0 (y :: w) p → ∀ c2 c3 bb bc, Vs.learn { d with c2 := c2, c3 := c3, bitBuf := bb, bitCount := bc, str := y :: w } p =
        .ok { d with c2 := c2, c3 := c3, bitBuf := bb, bitCount := bc, str := y :: w, dict := D, c1 := c, lastAdded := la }) →
      ∀ w p, Steps D la 0 (y :: w) p → (y :: w).length ≤ e.n7 → ∀ c2 c3 bb bc, ∃ b u,
        Vs.codeword { d with c2 := c2, c3 := c3, bitBuf := bb, bitCount := bc } p =
        .ok { d with c2 := c2, c3 := c3, bitBuf := bb, bitCount := bc, dict := D, c1 := c, lastAdded := la, updateAt := if (y :: w).length = e.n7 then 0 else p, esc := escAfter d.esc (y :: w), str := [], flushed := 0, buf := b, out := u } ∧
        u ++ b = d.out ++ d.buf ++ d.str ++ y :: w := by
    intro D c la hD hla h0 hc hs hlearn w p st hl c2 c3 bb bc
    have hr := steps_range hD st (.inl rfl) (.inl (by simp))
    unfold Vs.codeword
    dsimp only
    rw [if_neg (by rw [B.c1]; omega), hexp D c la hD h0 hs w p st hl, bind_ok, hlearn w p st, bind_ok]
    dsimp only
    obtain ⟨b, u, h1, h2⟩ := sendString_ok { d with c2 := c2, c3 := c3, bitBuf := bb, bitCount := bc, str := y :: w, dict := D, c1 := c, lastAdded := la, updateAt := if (y :: w).length + d.flushed = d.n7 then 0 else p, esc := escAfter d.esc (y :: w) }
    rw [h1]
    refine ⟨b, u, ?_, by rw [h2, hs, List.append_nil]⟩
    rw [B.dfl, B.n7, Nat.add_zero]
  rcases L.next y l rfl with ⟨hU, hA, hM⟩ | ⟨hU, hA, hn, a, ha, hM, hD⟩
  · by_cases h0 : d.at = 0
    · -- nothing is added
      have hlm : d.lastMatched = 0 := by
        unfold Vs.at at h0; split at h0
        · contradiction
        · rename_i h; exact Decidable.not_not.mp h
      have hua : d.updateAt = 0 := by
        unfold Vs.at at h0; rw [if_neg (by omega)] at h0; exact h0
      have hs := B.dstr hlm
      refine ⟨e.dict, e.c1, e.lastAdded, ?_, B.wf, B.ela, ?_, ?_⟩
      · rw [update_zero (by omega)]
        have : e.updateAt = 0 := by omega
        rw [← this]
      · intro hm E
        refine ⟨d.buf, d.out, ?_, by rw [hs, List.append_nil]⟩
        refine plainOctet_of ?_
        rw [plainRound_first (d := { d with escaped := false, esc := E }) (D := e.dict) (c := e.c1) (la := e.lastAdded) ?_ B.ela hlm hs B.dfl
          (by rw [show Vs.n7 { d with escaped := false, esc := E } = d.n7 from rfl, B.n7]; exact B.n7lo)]
        · rw [B.dfl]
        · rw [update_zero (s := { d with escaped := false, esc := E }) hua, ← B.dict, ← B.c1, hA, ← hua]
      · intro hm
        refine hcw e.dict e.c1 e.lastAdded B.wf B.ela (fun x _ => by rw [B.dict]; exact ⟨rfl, rfl⟩) (.inl rfl) hs ?_
        intro w p st c2 c3 bb bc
        unfold Vs.learn
        dsimp only
        rw [if_neg (by omega), ← B.dict, ← B.c1, hA]
    · -- an entry is added
      obtain ⟨m1, m2, m3, m4⟩ := hM h0
      obtain ⟨D', y', hD', hpo, -, hadd⟩ := addOctet_all B.wf m1 (by have := B.n2hi; omega) m3 y
      have hc1 := B.wf.c1lo
      have hup : ∀ s : Vs, s.dict = e.dict → s.c1 = e.c1 → s.n2 = e.n2 → s.updateAt = d.at →
          s.update y = .ok { s with dict := D', c1 := y', lastAdded := e.c1, updateAt := 0 } := by
        intro s h1 h2 h3 h4
        unfold Vs.update
        rw [if_pos (by omega), h4, h1, m4, bind_ok, if_pos rfl, hadd s h1 h2 h3, bind_ok]
      refine ⟨D', y', e.c1, hup e rfl rfl rfl hU, hD', .inr hc1, ?_, ?_⟩
      · intro hm E
        by_cases hlm : d.lastMatched = 0
        · have hs := B.dstr hlm
          have hua : d.updateAt = d.at := by unfold Vs.at; rw [if_neg (by omega)]
          refine ⟨d.buf, d.out, ?_, by rw [hs, List.append_nil]⟩
          refine plainOctet_of ?_
          rw [plainRound_first (d := { d with escaped := false, esc := E }) (D := D') (c := y') (la := e.c1) ?_ (.inr hc1) hlm hs B.dfl
            (by rw [show Vs.n7 { d with escaped := false, esc := E } = d.n7 from rfl, B.n7]; exact B.n7lo)]
          · rw [B.dfl]
          · exact hup { d with escaped := false, esc := E } B.dict B.c1 B.n2 hua
        · have hat : d.at = d.lastMatched := by unfold Vs.at; rw [if_pos hlm]
          rw [hat] at m4
          obtain ⟨b, u, h1, h2⟩ := plainRound_cut (d := { d with escaped := false, esc := E }) (o := y) (c := 0) (B.dplain hlm)
            (by dsimp only; rw [B.dict]; exact m4) (.inl rfl)
          rw [if_pos rfl, if_pos rfl] at h1
          dsimp only at h1 h2
          refine ⟨b, u, ?_, h2⟩
          unfold Vs.plainOctet
          rw [h1, bind_ok]
          dsimp only
          rw [if_neg (by decide), plainRound_first (D := D') (c := y') (la := e.c1) ?_ (.inr hc1) rfl rfl rfl
            (by dsimp only; rw [B.n7]; exact B.n7lo)]
          exact hup { d with escaped := false, esc := E, updateAt := d.lastMatched, lastMatched := 0, str := [], flushed := 0, buf := b, out := u }
            B.dict B.c1 B.n2 hat.symm
      · intro hm
        have hlm := B.dcode hm
        have hs := B.dstr hlm
        have hua : d.updateAt = d.at := by unfold Vs.at; rw [if_neg (by omega)]
        refine hcw D' y' e.c1 hD' (.inr hc1) (fun x hx => by rw [B.dict]; exact ⟨(hpo x hx).1.symm, (hpo x hx).2.symm⟩) (.inr rfl) hs ?_
        intro w p st c2 c3 bb bc
        have hr := steps_range hD' st (.inl rfl) (.inl (by simp))
        have hm' : matchOctet d.dict d.updateAt y = .ok 0 := by rw [hua, B.dict]; exact m4
        have hadd' := hadd { d with c2 := c2, c3 := c3, bitBuf := bb, bitCount := bc, str := y :: w } B.dict B.c1 B.n2
        rw [← hua] at hadd'
        unfold Vs.learn
        dsimp only
        rw [if_pos (by omega), List.headD_cons, hm', bind_ok, if_pos rfl, hadd', bind_ok]
        dsimp only
        rw [if_neg hr.2.2.1]
  · -- the entry added last was hit
    refine ⟨e.dict, e.c1, 0, ?_, B.wf, .inl rfl, ?_, ?_⟩
    · rw [update_zero hU]
      exact congrArg VRes.ok (set_zero hU hA).symm
    · intro hm E
      rcases hD with ⟨hlm, hla⟩ | ⟨hlm, hla⟩
      · have hat : d.at = d.lastMatched := by unfold Vs.at; rw [if_pos hlm]
        rw [hat] at hM
        obtain ⟨b, u, h1, h2⟩ := plainRound_cut (d := { d with escaped := false, esc := E }) (o := y) (c := a) (B.dplain hlm)
          (by dsimp only; rw [B.dict]; exact hM) (.inr hla.symm)
        rw [if_neg ha, if_neg ha] at h1
        dsimp only at h1 h2
        refine ⟨b, u, ?_, h2⟩
        unfold Vs.plainOctet
        rw [h1, bind_ok]
        dsimp only
        rw [if_neg (by decide), plainRound_first (D := e.dict) (c := e.c1) (la := 0) ?_ (.inl rfl) rfl rfl rfl
          (by dsimp only; rw [B.n7]; exact B.n7lo)]
        rw [update_zero rfl, B.dict, B.c1]
      · have hs := B.dstr hlm
        have hua : d.updateAt = d.at := by unfold Vs.at; rw [if_neg (by omega)]
        have hla0 : d.lastAdded = 0 := by
          rcases hla with h | ⟨h, -⟩
          · exact h
          · rw [hm] at h; cases h
        refine ⟨d.buf, d.out, ?_, by rw [hs, List.append_nil]⟩
        refine plainOctet_of ?_
        rw [plainRound_first (d := { d with escaped := false, esc := E }) (D := e.dict) (c := e.c1) (la := 0) ?_ (.inl rfl) hlm hs B.dfl
          (by rw [show Vs.n7 { d with escaped := false, esc := E } = d.n7 from rfl, B.n7]; exact B.n7lo)]
        · rw [B.dfl]
        · unfold Vs.update
          dsimp only
          rw [if_pos (by omega), hua, B.dict, hM, bind_ok, if_neg ha, hla0, B.c1]
    · intro hm
      have hlm := B.dcode hm
      have hs := B.dstr hlm
      have hua : d.updateAt = d.at := by unfold Vs.at; rw [if_neg (by omega)]
      refine hcw e.dict e.c1 0 B.wf (.inl rfl) (fun x _ => by rw [B.dict]; exact ⟨rfl, rfl⟩) (.inl rfl) hs ?_
      intro w p st c2 c3 bb bc
      have hla : d.lastAdded = 0 ∨ d.lastAdded = a := by
        rcases hD with ⟨h, -⟩ | ⟨-, h | ⟨-, h⟩⟩
        · exact absurd hlm h
        · exact .inl h
        · exact .inr h
      unfold Vs.learn
      dsimp only
      rw [if_pos (by omega), hua, B.dict, List.headD_cons, hM, bind_ok, if_neg ha]
      split
      · rw [B.c1]
      · have : d.lastAdded = 0 := by
          rcases hla with h | h
          · exact h
          · exact absurd h.symm (by assumption)
        rw [this, B.c1]

/-- The next string of the compressor. -/
theorem walk_ok : ∀ (l : List UInt8) (s : Vs), DWF s.dict s.c1 s.n2 →
    (s.lastMatched = 0 ∨ (3 ≤ s.lastMatched ∧ s.lastMatched < s.n2)) → s.flushed = 0 → s.n7 ≤ 250 → s.str.length < s.n7 →
    ∃ w rest p, l = w ++ rest ∧ Steps s.dict s.lastAdded s.lastMatched w p ∧ s.str.length + w.length ≤ s.n7 ∧
      ((rest = [] ∧ s.str.length + w.length < s.n7 ∧ walk s l = .ok ({ s with lastMatched := p, str := s.str ++ w }, [])) ∨
       (∃ z l', rest = z :: l' ∧ s.str.length + w.length < s.n7 ∧ matchOctet s.dict p z = .ok 0 ∧
          walk s l = (Vs.sendData { s with updateAt := p, lastMatched := p, str := s.str ++ w } p >>= fun t => .ok ({ t with lastMatched := 0 }, rest))) ∨
       (∃ z l', rest = z :: l' ∧ s.str.length + w.length < s.n7 ∧ s.lastAdded ≠ 0 ∧ matchOctet s.dict p z = .ok s.lastAdded ∧
          walk s l = (Vs.sendData { s with lastAdded := 0, lastMatched := p, str := s.str ++ w } p >>= fun t => .ok ({ t with lastMatched := 0 }, rest))) ∨
       (s.str.length + w.length = s.n7 ∧
          walk s l = (Vs.sendData { s with lastMatched := p, str := s.str ++ w } p >>= fun t => .ok ({ t with lastMatched := 0 }, rest))))
  | [], s, _, _, _, _, hs => by
    refine ⟨[], [], s.lastMatched, rfl, .nil _, by simpa using Nat.le_of_lt hs, .inl ⟨rfl, by simpa using hs, ?_⟩⟩
    rw [walk, List.append_nil]
  | o :: l, s, hw, hr, hf, h7, hs => by
    obtain ⟨c, hc, hcr⟩ : ∃ c, matchOctet s.dict s.lastMatched o = .ok c ∧ (c = 0 ∨ (3 ≤ c ∧ c < s.n2)) := by
      have ho := o.toNat_lt
      have h1 := hw.c1lo
      have h2 := hw.c1hi
      rcases hr with hr | ⟨hr, hr'⟩
      · rw [hr, match_root]; exact ⟨_, rfl, .inr (by omega)⟩
      · obtain ⟨r, h1, h2⟩ := match_ok hw hr (by have := hw.hi; omega) o
        refine ⟨r, h1, ?_⟩
        rcases h2 with h2 | ⟨h2, h3, -⟩
        · exact .inl h2
        · exact .inr ⟨by omega, h3⟩
    by_cases h0 : c = 0
    · subst h0
      refine ⟨[], o :: l, s.lastMatched, rfl, .nil _, by simpa using Nat.le_of_lt hs, .inr (.inl ⟨o, l, rfl, by simpa using hs, hc, ?_⟩)⟩
      rw [walk, hc, bind_ok, if_pos rfl, List.append_nil]
    · by_cases hla : c = s.lastAdded
      · refine ⟨[], o :: l, s.lastMatched, rfl, .nil _, by simpa using Nat.le_of_lt hs,
          .inr (.inr (.inl ⟨o, l, rfl, by simpa using hs, by omega, by rw [← hla]; exact hc, ?_⟩))⟩
        rw [walk, hc, bind_ok, if_neg h0, if_pos hla, List.append_nil]
      · by_cases hfull : s.str.length + 1 = s.n7
        · refine ⟨[o], l, c, rfl, .cons hc h0 hla (.nil _), by simp; omega, .inr (.inr (.inr ⟨by simp; omega, ?_⟩))⟩
          rw [walk, hc, bind_ok, if_neg h0, if_neg hla, if_neg (by omega), hf, if_pos (by omega)]
        · obtain ⟨w, rest, p, e1, e2, e3, e4⟩ := walk_ok l { s with lastMatched := c, str := s.str ++ [o] } hw
            (.inr (hcr.resolve_left h0)) hf h7 (by simp; omega)
          have hwalk : walk s (o :: l) = walk { s with lastMatched := c, str := s.str ++ [o] } l := by
            rw [walk, hc, bind_ok, if_neg h0, if_neg hla, if_neg (by omega), hf, if_neg (by omega)]
          dsimp only at e2 e3 e4
          simp only [List.append_assoc, List.singleton_append, List.length_append, List.length_singleton] at e3 e4
          refine ⟨o :: w, rest, p, by rw [e1]; rfl, .cons hc h0 hla e2, by simp; omega, ?_⟩
          rw [hwalk, show s.str.length + (o :: w).length = s.str.length + 1 + w.length by simp; omega]
          exact e4

end Verif.V42
