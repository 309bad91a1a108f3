import Verif.Csn1.Frame
import Verif.Spec.RlcControl

/-!
# Lemmas about the decoding functions
-/
namespace Verif.Csn1

theorem hdrField_eq_ok {v p off n s t} (h : hdrField v p off n s = .ok t) :
    t = { s with mem := s.mem.putLe (0 + off + 0) 1 (bitsVal v s.rd n), rd := s.rd + n } := by
  obtain ⟨t1, h1, h2⟩ := CRes.bind_eq_ok h
  obtain ⟨rfl, _⟩ := wr_eq_ok h1
  cases h2
  rfl

theorem hdrField_safe {v p off n s} (h : p.store 0 off 1 0 1 = true) : (hdrField v p off n s).Safe :=
  safe_bind (wr_safe h) fun _ _ => CRes.safe_ok _

theorem hdrField_hi {v k off n s} : Hi k s (hdrField v (.object k) off n s) :=
  Hi.bind wr_hi fun _ => Hi.mk rfl

/-- The stores of the header lie in the structure. -/
def HdrFits (p : Pol) : Prop := ∀ off, off < dlUnion + 14 → p.store 0 off 1 0 1 = true

theorem hdr_byte_ne {v : List Bool} {p : Pol} {off n a : Nat} {s t : CSt} (h : hdrField v p off n s = .ok t)
    (ha : a ≠ off) : t.byte a = s.byte a := by
  rw [hdrField_eq_ok h]
  unfold CSt.byte
  dsimp only
  rcases Nat.lt_or_ge a off with h | h
  · rw [putLe_lo _ _ _ _ _ (by omega)]
  · rw [putLe_hi _ _ _ _ _ (by omega)]

theorem hdr_byte_eq {v : List Bool} {p : Pol} {off n : Nat} {s t : CSt} (h : hdrField v p off n s = .ok t)
    (hn : n ≤ 8) : t.byte off = bitsVal v s.rd n := by
  rw [hdrField_eq_ok h]
  unfold CSt.byte
  show (s.mem.putLe (0 + off + 0) 1 (bitsVal v s.rd n)) off % 256 = _
  rw [Nat.add_zero, Nat.zero_add, putLe_one]
  have := bitsVal_lt v n s.rd
  have h8 : 2 ^ n ≤ 2 ^ 8 := Nat.pow_le_pow_right (by decide) hn
  omega

theorem hdr_rd {v : List Bool} {p : Pol} {off n : Nat} {s t : CSt} (h : hdrField v p off n s = .ok t) :
    t.rd = s.rd + n ∧ t.bo = s.bo := by
  rw [hdrField_eq_ok h]; exact ⟨rfl, rfl⟩

theorem bitsVal_one (v : List Bool) (i : Nat) : bitsVal v i 1 = bitAt v i := by
  show bitAt v i * 2 ^ 0 + bitsVal v (i + 1) 0 = _
  show bitAt v i * 1 + 0 = _
  omega

/-- Three members of an octet that may follow. -/
theorem three_post {v p s} {a b c i j l : Nat} (hp : HdrFits p) (ha : a < dlUnion + 14) (hb : b < dlUnion + 14)
    (hc : c < dlUnion + 14) (hs : i + j + l = 8) :
    (do
      let s ← hdrField v p a i s
      let s ← hdrField v p b j s
      let s ← hdrField v p c l s
      CRes.ok { s with bo := s.bo + 8 }).Safe ∧
    ∀ t, (do
      let s ← hdrField v p a i s
      let s ← hdrField v p b j s
      let s ← hdrField v p c l s
      CRes.ok { s with bo := s.bo + 8 }) = .ok t →
      t.rd = s.rd + 8 ∧ t.bo = s.bo + 8 ∧ ∀ x, x ≠ a → x ≠ b → x ≠ c → t.byte x = s.byte x := by
  refine ⟨?_, fun t h => ?_⟩
  · refine safe_bind (hdrField_safe (hp _ ha)) fun _ _ => ?_
    refine safe_bind (hdrField_safe (hp _ hb)) fun _ _ => ?_
    exact safe_bind (hdrField_safe (hp _ hc)) fun _ _ => CRes.safe_ok _
  · obtain ⟨t1, h1, h⟩ := CRes.bind_eq_ok h
    obtain ⟨t2, h2, h⟩ := CRes.bind_eq_ok h
    obtain ⟨t3, h3, h⟩ := CRes.bind_eq_ok h
    cases h
    have r1 := hdr_rd h1
    have r2 := hdr_rd h2
    have r3 := hdr_rd h3
    refine ⟨by dsimp only; omega, by dsimp only; omega, fun x xa xb xc => ?_⟩
    exact (hdr_byte_ne h3 xc).trans ((hdr_byte_ne h2 xb).trans (hdr_byte_ne h1 xa))

theorem hdrOpt_post {v p s} (hp : HdrFits p) (hr : s.rd = 8) (hb : s.bo = 8) :
    (hdrOpt v p s).Safe ∧ ∀ t, hdrOpt v p s = .ok t →
      t.rd = t.bo ∧ t.bo = 16 + (if bitAt v 15 = 1 then 8 else 0) +
        (if bitAt v 8 = 1 ∧ bitAt v 14 = 0 then 8 else 0) := by
  have hac : ∀ s, (hdrAc v p s).Safe ∧ ∀ t, hdrAc v p s = .ok t →
      (t.rd = s.rd + (if s.byte (dlUnion + 7) = 1 then 8 else 0) ∧
        t.bo = s.bo + (if s.byte (dlUnion + 7) = 1 then 8 else 0)) ∧
      ∀ x, x ≠ dlUnion + 8 → x ≠ dlUnion + 9 → x ≠ dlUnion + 10 → t.byte x = s.byte x := by
    intro s
    unfold hdrAc
    split
    · have h := three_post (v := v) (s := s) (a := dlUnion + 8) (b := dlUnion + 9) (c := dlUnion + 10) (i := 2)
        (j := 5) (l := 1) hp (by omega) (by omega) (by omega) (by omega)
      exact ⟨h.1, fun t ht => ⟨⟨(h.2 t ht).1, (h.2 t ht).2.1⟩, (h.2 t ht).2.2⟩⟩
    · exact ⟨CRes.safe_ok _, fun t h => by cases h; exact ⟨⟨rfl, rfl⟩, fun _ _ _ _ => rfl⟩⟩
  have hext : ∀ s, (hdrExt v p s).Safe ∧ ∀ t, hdrExt v p s = .ok t →
      (t.rd = s.rd + (if s.byte (dlUnion + 4) = 1 ∧ s.byte (dlUnion + 6) = 0 then 8 else 0) ∧
        t.bo = s.bo + (if s.byte (dlUnion + 4) = 1 ∧ s.byte (dlUnion + 6) = 0 then 8 else 0)) := by
    intro s
    unfold hdrExt
    split
    · have h := three_post (v := v) (s := s) (a := dlUnion + 11) (b := dlUnion + 12) (c := dlUnion + 13) (i := 3)
        (j := 1) (l := 4) hp (by omega) (by omega) (by omega) (by omega)
      exact ⟨h.1, fun t ht => ⟨(h.2 t ht).1, (h.2 t ht).2.1⟩⟩
    · exact ⟨CRes.safe_ok _, fun t h => by cases h; exact ⟨rfl, rfl⟩⟩
  refine ⟨?_, fun t h => ?_⟩
  · refine safe_bind (hdrField_safe (hp _ (by omega))) fun _ _ => ?_
    refine safe_bind (hdrField_safe (hp _ (by omega))) fun _ _ => ?_
    refine safe_bind (hdrField_safe (hp _ (by omega))) fun _ _ => ?_
    refine safe_bind (hdrField_safe (hp _ (by omega))) fun _ _ => ?_
    exact safe_bind (hac _).1 fun _ _ => (hext _).1
  · obtain ⟨t1, h1, h⟩ := CRes.bind_eq_ok h
    obtain ⟨t2, h2, h⟩ := CRes.bind_eq_ok h
    obtain ⟨t3, h3, h⟩ := CRes.bind_eq_ok h
    obtain ⟨t4, h4, h⟩ := CRes.bind_eq_ok h
    obtain ⟨t5, h5, h⟩ := CRes.bind_eq_ok h
    have r1 := hdr_rd h1
    have r2 := hdr_rd h2
    have r3 := hdr_rd h3
    have r4 := hdr_rd h4
    obtain ⟨r5, b5⟩ := (hac _).2 _ h5
    have r6 := (hext _).2 _ h
    have e7 : t4.byte (dlUnion + 7) = bitAt v 15 := by
      rw [hdr_byte_eq h4 (by decide), show t3.rd = 15 by omega, bitsVal_one]
    have e6 : t5.byte (dlUnion + 6) = bitAt v 14 := by
      rw [b5 _ (by omega) (by omega) (by omega)]
      show t4.byte _ = _
      rw [hdr_byte_ne h4 (by omega), hdr_byte_eq h3 (by decide), show t2.rd = 14 by omega, bitsVal_one]
    have e4 : t5.byte (dlUnion + 4) = bitAt v 8 := by
      rw [b5 _ (by omega) (by omega) (by omega)]
      show t4.byte _ = _
      rw [hdr_byte_ne h4 (by omega), hdr_byte_ne h3 (by omega), hdr_byte_ne h2 (by omega),
        hdr_byte_eq h1 (by decide), hr, bitsVal_one]
    have e7' : ({ t4 with bo := t4.bo + 8 } : CSt).byte (dlUnion + 7) = bitAt v 15 := e7
    rw [e7'] at r5
    rw [e6, e4] at r6
    dsimp only at r5
    omega

open Verif.Spec in
/-- The downlink decoder is free of undefined behaviour on the message types whose tables are. -/
theorem decodeDownlink_safe {v p m} (hp : HdrFits p) (hn : p.store 0 (dlUnion + 14) 2 0 2 = true)
    (ht : ∀ t, dlTable (dlMessageType v) = some t → ckL p 176 0 [] [] 0 t = true) :
    (decodeDownlink p v m).Safe := by
  refine safe_bind (hdrField_safe (hp _ (by omega))) fun s1 e1 => ?_
  refine safe_bind (hdrField_safe (hp _ (by omega))) fun s2 e2 => ?_
  refine safe_bind (hdrField_safe (hp _ (by omega))) fun s3 e3 => ?_
  refine safe_bind (hdrField_safe (hp _ (by omega))) fun s4 e4 => ?_
  have hpt : s4.byte dlUnion = payloadType v := by
    rw [hdr_byte_ne e4 (by omega), hdr_byte_ne e3 (by omega), hdr_byte_ne e2 (by omega),
      hdr_byte_eq e1 (by decide)]
    rfl
  have r1 := (hdr_rd e1).1
  have r2 := (hdr_rd e2).1
  have r3 := (hdr_rd e3).1
  have r4 := (hdr_rd e4).1
  dsimp only at r1
  split
  · exact CRes.safe_fail _
  · have hopt : (dlOpt v p { s4 with bo := 8 }).Safe ∧ ∀ t, dlOpt v p { s4 with bo := 8 } = .ok t →
        t.rd = t.bo ∧ t.bo = dlMessageAt v := by
      unfold dlOpt dlMessageAt
      have hpt' : ({ s4 with bo := 8 } : CSt).byte dlUnion = payloadType v := hpt
      rw [hpt']
      split
      · exact hdrOpt_post hp (by dsimp only; omega) rfl
      · refine ⟨CRes.safe_ok _, fun t h => ?_⟩
        cases h
        exact ⟨by dsimp only; omega, rfl⟩
    refine safe_bind hopt.1 fun s5 e5 => ?_
    obtain ⟨hrb, hb⟩ := hopt.2 _ e5
    refine safe_bind (hdrField_safe (hp _ (by unfold dlUnion; omega))) fun s6 e6 => ?_
    refine safe_bind (wr_safe hn) fun s7 e7 => ?_
    obtain ⟨rfl, _⟩ := wr_eq_ok e7
    have hb6 : 8 ≤ s6.bo := by
      rw [(hdr_rd e6).2, hb]
      unfold dlMessageAt
      split <;> omega
    have hby : ({ s6 with mem := s6.mem.putLe (0 + (dlUnion + 14) + 0) 2 (184 - s6.bo) } : CSt).byte 0 =
        dlMessageType v := by
      unfold dlMessageType
      rw [← hb, ← hrb, ← hdr_byte_eq e6 (by decide)]
      unfold CSt.byte
      dsimp only
      rw [putLe_lo _ _ _ _ _ (by unfold dlUnion; omega)]
    rw [hby]
    split
    · next t htab =>
      refine ckL_sound v p t 176 0 0 [] [] 0 {} _ (ht t htab) (Nat.le_refl _) ?_
        (Or.inl rfl) Facts.nil
      dsimp only
      omega
    · exact CRes.safe_fail _

theorem hdrOpt_hi {v k s} : Hi k s (hdrOpt v (.object k) s) := by
  have h3 : ∀ a b c i j l (s : CSt), Hi k s (do
      let s ← hdrField v (.object k) a i s
      let s ← hdrField v (.object k) b j s
      let s ← hdrField v (.object k) c l s
      .ok { s with bo := s.bo + 8 }) := fun a b c i j l s =>
    Hi.bind hdrField_hi fun _ => Hi.bind hdrField_hi fun _ => Hi.bind hdrField_hi fun _ => Hi.mk rfl
  refine Hi.bind hdrField_hi fun _ => Hi.bind hdrField_hi fun _ => Hi.bind hdrField_hi fun _ =>
    Hi.bind hdrField_hi fun t => Hi.bind (Hi.from (s' := { t with bo := t.bo + 8 }) ?_ rfl) fun _ => ?_
  · unfold hdrAc
    split
    · exact h3 _ _ _ _ _ _ _
    · exact Hi.refl
  · unfold hdrExt
    split
    · exact h3 _ _ _ _ _ _ _
    · exact Hi.refl

theorem decodeDownlink_hi {v k m t} (h : decodeDownlink (.object k) v m = .ok t) :
    ∀ a, k ≤ a → t.mem a = m a := by
  have : Hi k { mem := m, rd := 0, bo := 0, rem := 0 } (decodeDownlink (.object k) v m) := by
    refine Hi.bind hdrField_hi fun _ => Hi.bind hdrField_hi fun _ => Hi.bind hdrField_hi fun _ =>
      Hi.bind hdrField_hi fun s => ?_
    split
    · exact Hi.fail
    · refine Hi.bind (Hi.from (s' := { s with bo := 8 }) ?_ rfl) fun _ => ?_
      · unfold dlOpt
        split
        · exact hdrOpt_hi
        · exact Hi.refl
      · refine Hi.bind hdrField_hi fun _ => Hi.bind wr_hi fun _ => ?_
        split
        · exact Hi.from (decL_hi v k _ 0 {} _) rfl
        · exact Hi.fail
  exact this t h

theorem decodeUplink_safe {v p m} (hn : p.store 0 ulUnion 2 0 2 = true) (h0 : p.store 0 0 1 0 1 = true)
    (ht : ∀ t, ulTable (bitsVal v 8 6) = some t → ckL p 184 0 [] [] 0 t = true) :
    (decodeUplink p v m).Safe := by
  unfold decodeUplink
  split
  · exact CRes.safe_fail _
  · refine safe_bind (wr_safe hn) fun s1 e1 => ?_
    refine safe_bind (wr_safe h0) fun s2 e2 => ?_
    obtain ⟨rfl, _⟩ := wr_eq_ok e2
    have hby : ({ s1 with mem := s1.mem.putLe (0 + 0 + 0) 1 (bitsVal v 8 6) } : CSt).byte 0 = bitsVal v 8 6 := by
      unfold CSt.byte
      show (s1.mem.putLe 0 1 (bitsVal v 8 6)) 0 % 256 = _
      rw [putLe_one]
      have := bitsVal_lt v 6 8
      omega
    rw [hby]
    split
    · next t htab =>
      exact ckL_sound v p t 184 0 0 [] [] 0 {} _ (ht t htab) (Nat.le_refl _) (Int.le_refl _) (Or.inl rfl)
        Facts.nil
    · exact CRes.safe_fail _

theorem decodeUplink_hi {v k m t} (h : decodeUplink (.object k) v m = .ok t) :
    ∀ a, k ≤ a → t.mem a = m a := by
  have : Hi k { mem := m, rd := 0, bo := 0, rem := 0 } (decodeUplink (.object k) v m) := by
    unfold decodeUplink
    split
    · exact Hi.fail
    · refine Hi.bind wr_hi fun _ => Hi.bind wr_hi fun _ => ?_
      split
      · exact Hi.from (decL_hi v k _ 0 {} _) rfl
      · exact Hi.fail
  exact this t h

theorem decodeRest_safe {v p t m} {n R : Nat} (h : ckL p R 0 [] [] 0 t = true) (hn : 8 * n ≤ R) :
    (decodeRest p t v n m).Safe :=
  ckL_sound v p t R 0 0 [] [] 0 {} _ h (Nat.le_refl _) (by dsimp only; omega) (Or.inl rfl) Facts.nil

theorem decodeRest_hi {v k tab n m t} (h : decodeRest (.object k) tab v n m = .ok t) :
    ∀ a, k ≤ a → t.mem a = m a := decL_hi v k tab 0 {} _ t h

end Verif.Csn1
