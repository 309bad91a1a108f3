import Verif.Props.GmmUnknownIe
import Verif.Props.SmData
/-!
# C192: elements the library makes no use of do not change how the answer to a PDP context request is taken
-/
namespace Verif.Props
open Verif Verif.Sm Verif.Gsm
open Verif.Gmm (bind_eq_ok)

/-! ## Specification -/

/-- Elements of type 4 that 3GPP TS 24.008 (9.5.2, 9.5.3) allows in ACTIVATE PDP CONTEXT ACCEPT (0x42: packet flow
identifier, SM cause, NBIFOM container) and in ACTIVATE PDP CONTEXT REJECT (0x43: back-off timer, re-attempt indicator,
NBIFOM container) and that the library makes no use of. -/
def SmExtra (ty tag : UInt8) : Prop :=
  (ty = 0x42 ∧ (tag = 0x34 ∨ tag = 0x39 ∨ tag = 0x33)) ∨ (ty = 0x43 ∧ (tag = 0x37 ∨ tag = 0x6b ∨ tag = 0x33))

/-- **C192**, full statement.  When session management accepts the answer of the network to a request, it accepts the
message with such an element added as well, and does the same. -/
def C192Statement : Prop :=
  ∀ l c t sess hd ty m c' o tag v, smRun smInit l = .ok (c, t) → SmExtra ty tag → v.length < 256 →
    smStep c (.unitdataInd sess (hd :: ty :: m)) = .ok (c', o, none) →
    smStep c (.unitdataInd sess (hd :: ty :: m ++ tlvElement tag v)) = .ok (c', o, none)

/-! ## Proof -/

theorem decAddr_mono {b x : Octets} {ofs len : Nat} {a : PdpAddr} (h : decAddr b ofs len = .ok a) :
    decAddr (b ++ x) ofs len = .ok a := by
  unfold decAddr at h ⊢
  obtain ⟨org, h1, h⟩ := bind_eq_ok.1 h
  rw [rd_mono h1]
  simp only [Res.bind_ok]
  split at h
  · cases h
  · rename_i ho
    rw [if_neg ho]
    obtain ⟨ty, h2, h⟩ := bind_eq_ok.1 h
    rw [rd_mono h2]
    simp only [Res.bind_ok]
    unfold decAddrTail at h ⊢
    generalize (len % 65536 + 65536 - 2) % 65536 = n at h ⊢
    by_cases t1 : ty = tyIpv4
    · rw [if_pos t1] at h ⊢
      by_cases l1 : n = 4
      · rw [if_pos l1] at h ⊢
        obtain ⟨v, h3, h⟩ := bind_eq_ok.1 h
        rw [rdN_mono h3]; exact h
      · rw [if_neg l1] at h ⊢; exact h
    · rw [if_neg t1] at h ⊢
      by_cases t2 : ty = tyIpv6
      · rw [if_pos t2] at h ⊢
        by_cases l1 : n = 16
        · rw [if_pos l1] at h ⊢
          obtain ⟨v, h3, h⟩ := bind_eq_ok.1 h
          rw [rdN_mono h3]; exact h
        · rw [if_neg l1] at h ⊢; exact h
      · rw [if_neg t2] at h ⊢
        by_cases t3 : ty = tyIpv4v6
        · rw [if_pos t3] at h ⊢
          by_cases l1 : n = 4
          · rw [if_pos l1] at h ⊢
            obtain ⟨v, h3, h⟩ := bind_eq_ok.1 h
            rw [rdN_mono h3]; exact h
          · rw [if_neg l1] at h ⊢
            by_cases l2 : n = 16
            · rw [if_pos l2] at h ⊢
              obtain ⟨v, h3, h⟩ := bind_eq_ok.1 h
              rw [rdN_mono h3]; exact h
            · rw [if_neg l2] at h ⊢
              by_cases l3 : n = 20
              · rw [if_pos l3] at h ⊢
                obtain ⟨v, h3, h⟩ := bind_eq_ok.1 h
                obtain ⟨w, h4, h⟩ := bind_eq_ok.1 h
                rw [rdN_mono h3]
                simp only [Res.bind_ok]
                rw [rdN_mono h4]; exact h
              · rw [if_neg l3] at h ⊢; exact h
        · rw [if_neg t3] at h; cases h

theorem takePco_app {s s' : Sme} {b x : Octets} {l : List Ie} {e : Ie} (he : e.tag ≠ iePco)
    (h : takePco s b l = (s', .ok ())) : takePco s (b ++ x) (l ++ [e]) = (s', .ok ()) := by
  unfold takePco at h ⊢
  rw [ieGet_app he]
  split at h
  · exact h
  · split at h
    · cases h
    · rename_i hl
      rw [if_neg hl]
      split at h
      · rename_i v hv
        rw [rdN_mono hv]; exact h
      · cases h
      · cases h

theorem takeAddr_app {s s' : Sme} {b x : Octets} {l : List Ie} {e : Ie} (he : e.tag ≠ iePdpAddr)
    (h : takeAddr s b l = (s', .ok ())) : takeAddr s (b ++ x) (l ++ [e]) = (s', .ok ()) := by
  unfold takeAddr at h ⊢
  rw [ieGet_app he]
  split at h
  · exact h
  · split at h
    · rename_i v hv
      rw [decAddr_mono hv]; exact h
    · cases h
    · cases h

theorem ieParse_end {d : Nat → IeType} {b : Octets} {pos : Nat} (h : b.length ≤ pos) : ieParse d b pos = .ok [] := by
  unfold ieParse
  cases hb : b.length with
  | zero => rfl
  | succ n =>
    unfold ieParseFrom
    rw [if_pos h]

/-- The optional part of ACCEPT with one more element. -/
theorem ackTlvs_tlv {s s' : Sme} {b : Octets} {pos : Nat} {tag : UInt8} {v : Octets} (hp : pos ≤ b.length)
    (hv : v.length < 256) (hs : smTlvDef (tag.toNat / 16 * 16) ≠ .singleTv) (h : ackTlvs s b pos = (s', .ok ())) :
    (smTlvDef tag.toNat = .tlv → tag.toNat ≠ iePco → tag.toNat ≠ iePdpAddr →
      ackTlvs s (b ++ tlvElement tag v) pos = (s', .ok ())) ∧
    (smTlvDef tag.toNat = .unknown → ackTlvs s (b ++ tlvElement tag v) pos = (s, .err .einval)) := by
  unfold ackTlvs at h ⊢
  split at h
  · cases h
  · cases h
  · rename_i ies hi
    obtain ⟨k1, k2⟩ := ieParse_tlv hi hp hv hs
    refine ⟨fun ht h1 h2 => ?_, fun ht => ?_⟩
    · rw [k1 ht]
      dsimp only
      split at h
      · rename_i s1 _ ha
        rw [takeAddr_app h2 ha]
        exact takePco_app h1 h
      · rename_i hn
        exact absurd h (hn s' ())
    · rw [k2 ht]

/-- The optional part of REJECT with one more element. -/
theorem rejTlvs_tlv {s s' : Sme} {b : Octets} {pos : Nat} {tag : UInt8} {v : Octets} (hp : pos ≤ b.length)
    (hv : v.length < 256) (hs : smTlvDef (tag.toNat / 16 * 16) ≠ .singleTv) (h : rejTlvs s b pos = (s', .ok ())) :
    (smTlvDef tag.toNat = .unknown → rejTlvs s (b ++ tlvElement tag v) pos = (s, .err .einval)) := by
  unfold rejTlvs at h ⊢
  split at h
  · cases h
  · cases h
  · rename_i ies hi
    intro ht
    rw [(ieParse_tlv hi hp hv hs).2 ht]

/-- ACCEPT with one more element. -/
theorem rxAckBody_tlv {s s' : Sme} {b : Octets} {tag : UInt8} {v : Octets} (hv : v.length < 256)
    (hs : smTlvDef (tag.toNat / 16 * 16) ≠ .singleTv) (h : rxAckBody s b = (s', .ok ())) :
    (smTlvDef tag.toNat = .tlv → tag.toNat ≠ iePco → tag.toNat ≠ iePdpAddr →
      rxAckBody s (b ++ tlvElement tag v) = (s', .ok ())) ∧
    (smTlvDef tag.toNat = .unknown → ∃ s2, rxAckBody s (b ++ tlvElement tag v) = (s2, .err .einval)) := by
  have hx : (tlvElement tag v).length = v.length + 2 := by simp [tlvElement]
  have hlen : (b ++ tlvElement tag v).length = b.length + (v.length + 2) := by rw [List.length_append, hx]
  unfold rxAckBody at h
  split at h
  · cases h
  · unfold rdK at h
    split at h
    · rename_i sapi h2
      split at h
      · rename_i ql h3
        dsimp only at h
        split at h
        · cases h
        · rename_i hq
          split at h
          · cases h
          · rename_i hq2
            split at h
            · cases h
            · rename_i hq3
              split at h
              · rename_i rp h4
                have hd : (List.drop 4 (b ++ tlvElement tag v)).take ql = (List.drop 4 b).take ql := by
                  rw [List.drop_append_of_le_length (by omega), List.take_append_of_le_length (by rw [List.length_drop]; omega)]
                have hopt : ackTlvs { s with sapi := sapi, qos := (b.drop 4).take ql ++ s.qos.drop ql, radioPrio := rp } b (5 + ql) =
                    (s', .ok ()) := by
                  split at h
                  · exact h
                  · rw [ackTlvs, ieParse_end (by omega)]; exact h
                have e : rxAckBody s (b ++ tlvElement tag v) =
                    ackTlvs { s with sapi := sapi, qos := (b.drop 4).take ql ++ s.qos.drop ql, radioPrio := rp }
                      (b ++ tlvElement tag v) (5 + ql) := by
                  unfold rxAckBody rdK
                  rw [if_neg (by omega), rd_mono h2]
                  dsimp only
                  rw [rd_mono h3]
                  dsimp only
                  rw [if_neg hq, if_neg (by omega), if_neg (by omega), rd_mono h4]
                  dsimp only
                  rw [if_pos (by omega), hd]
                obtain ⟨k1, k2⟩ := ackTlvs_tlv (tag := tag) (v := v) (by omega) hv hs hopt
                rw [e]
                exact ⟨k1, fun ht => ⟨_, k2 ht⟩⟩
              · cases h
              · cases h
      · cases h
      · cases h
    · cases h
    · cases h

/-- REJECT with one more element. -/
theorem rxRejBody_tlv {s s' : Sme} {b : Octets} {k : Nat} {tag : UInt8} {v : Octets} (hv : v.length < 256)
    (hs : smTlvDef (tag.toNat / 16 * 16) ≠ .singleTv) (h : rxRejBody s b = (s', .ok k)) (ht : smTlvDef tag.toNat = .unknown) :
    rxRejBody s (b ++ tlvElement tag v) = (s, .err .einval) := by
  have hx : (tlvElement tag v).length = v.length + 2 := by simp [tlvElement]
  have hlen : (b ++ tlvElement tag v).length = b.length + (v.length + 2) := by rw [List.length_append, hx]
  unfold rxRejBody at h
  split at h
  · cases h
  · unfold rdK at h
    split at h
    · rename_i cause h2
      have hopt : ∃ s1, rejTlvs s b 3 = (s1, .ok ()) := by
        split at h
        · split at h
          · rename_i s1 u h3; exact ⟨s1, h3⟩
          · cases h
          · cases h
        · exact ⟨s, by rw [rejTlvs, ieParse_end (by omega)]; rfl⟩
      obtain ⟨s1, hopt⟩ := hopt
      unfold rxRejBody rdK
      rw [if_neg (by omega), rd_mono h2]
      dsimp only
      rw [if_pos (by omega), rejTlvs_tlv (by omega) hv hs hopt ht]
    · cases h
    · cases h

/-- What kind of element each is to the library. -/
theorem smExtra_type {ty tag : UInt8} (h : SmExtra ty tag) : smTlvDef (tag.toNat / 16 * 16) ≠ .singleTv ∧
    tag.toNat ≠ iePco ∧ tag.toNat ≠ iePdpAddr ∧ smTlvDef tag.toNat = if tag = 0x34 then .tlv else .unknown := by
  rcases h with ⟨-, rfl | rfl | rfl⟩ | ⟨-, rfl | rfl | rfl⟩ <;> decide +kernel

/-- **C192** (partial): it holds for the packet flow identifier in ACCEPT. -/
theorem c192_partial (c : SmCtx) (sess : Nat) (hd : UInt8) (m : Octets) (c' : SmCtx) (o : List SmOut) (v : Octets)
    (hv : v.length < 256) (h : smStep c (.unitdataInd sess (hd :: 0x42 :: m)) = .ok (c', o, none)) :
    smStep c (.unitdataInd sess (hd :: 0x42 :: m ++ tlvElement 0x34 v)) = .ok (c', o, none) := by
  have ht := smExtra_type (ty := 0x42) (tag := 0x34) (Or.inl ⟨rfl, Or.inl rfl⟩)
  simp only [smStep, withSess] at h ⊢
  split at h
  · cases h
  · rename_i id i hb
    split at h
    · cases h
    · rename_i s hs
      unfold smRx at h ⊢
      rw [if_neg (by simp)] at h
      rw [if_neg (by simp)]
      have h1 : ∀ n : Octets, rd (hd :: 0x42 :: n) 1 = .ok 0x42 := fun n => rfl
      rw [h1] at h
      rw [List.cons_append, List.cons_append, h1]
      dsimp only at h ⊢
      rw [if_pos rfl] at h ⊢
      split at h
      · rename_i s' _ hk
        have := (rxAckBody_tlv (v := v) hv ht.1 hk).1 (ht.2.2.2.trans (if_pos rfl)) ht.2.1 ht.2.2.1
        rw [List.cons_append, List.cons_append] at this
        rw [this]
        exact h
      · cases h
      · cases h

/-- With any of the other elements the answer is refused: neither SNDCP nor the user is told anything, and the state of
no PDP context changes. -/
theorem c192_refused (c : SmCtx) (sess : Nat) (hd ty tag : UInt8) (m : Octets) (c' : SmCtx) (o : List SmOut) (v : Octets)
    (hx : SmExtra ty tag) (hne : tag ≠ 0x34) (hv : v.length < 256)
    (h : smStep c (.unitdataInd sess (hd :: ty :: m)) = .ok (c', o, none)) :
    ∃ c2, smStep c (.unitdataInd sess (hd :: ty :: m ++ tlvElement tag v)) = .ok (c2, [], some .einval) ∧
      ∀ id n, stOf c2 id n = stOf c id n := by
  have ht := smExtra_type hx
  have hu := ht.2.2.2.trans (if_neg hne)
  have key : ∀ id i s s2, (c.ms id).pdp i = some s → Keeps s s2 → ∀ x n, stOf (c.put id i (some s2)) x n = stOf c x n := by
    intro id i s s2 hs hk x n
    unfold stOf
    rw [slot_put]
    split
    · rename_i hxn
      have : c.slot x n = some s := by rw [hxn.1, hxn.2]; exact hs
      rw [this]
      exact congrArg some hk.st
    · rfl
  simp only [smStep, withSess] at h ⊢
  split at h
  · cases h
  · rename_i id i hb
    split at h
    · cases h
    · rename_i s hs
      unfold smRx at h ⊢
      rw [if_neg (by simp)] at h
      rw [if_neg (by simp)]
      rcases hx with ⟨rfl, -⟩ | ⟨rfl, -⟩
      · have h1 : ∀ n : Octets, rd (hd :: 0x42 :: n) 1 = .ok 0x42 := fun n => rfl
        rw [h1] at h
        rw [List.cons_append, List.cons_append, h1]
        dsimp only at h ⊢
        rw [if_pos rfl] at h ⊢
        split at h
        · rename_i s' _ hk
          obtain ⟨s2, h2⟩ := (rxAckBody_tlv (v := v) hv ht.1 hk).2 hu
          rw [List.cons_append, List.cons_append] at h2
          have hk2 := rxAckBody_keeps s (hd :: 0x42 :: (m ++ tlvElement tag v))
          rw [h2] at hk2 ⊢
          exact ⟨_, rfl, key id i s s2 hs hk2⟩
        · cases h
        · cases h
      · have h1 : ∀ n : Octets, rd (hd :: 0x43 :: n) 1 = .ok 0x43 := fun n => rfl
        rw [h1] at h
        rw [List.cons_append, List.cons_append, h1]
        dsimp only at h ⊢
        rw [if_neg (by decide), if_pos rfl] at h ⊢
        split at h
        · rename_i s' _ hk
          have h2 := rxRejBody_tlv (v := v) hv ht.1 hk hu
          rw [List.cons_append, List.cons_append] at h2
          rw [h2]
          exact ⟨_, rfl, key id i s s hs (Keeps.refl s)⟩
        · cases h
        · cases h

/-- The user has asked for a PDP context and the request is sent. -/
def actPending : List SmIn := c50Good.take 2

/-- ACTIVATE PDP CONTEXT ACCEPT and ACTIVATE PDP CONTEXT REJECT for `actPending` are accepted. -/
theorem pending_answers : ∃ c t c1 o1 c2 o2, smRun smInit actPending = .ok (c, t) ∧
    smStep c (.unitdataInd 0 [0x8a, 0x42, 3, 3, 1, 2, 3, 4]) = .ok (c1, o1, none) ∧ o1 ≠ [] ∧
    smStep c (.unitdataInd 0 [0x8a, 0x43, 26]) = .ok (c2, o2, none) ∧ o2 ≠ [] :=
  ⟨_, _, _, _, _, _, rfl, rfl, by decide, rfl, by decide⟩

/-- **C192 is violated**: when the network says why it allowed only one kind of address (SM cause 50), its ACCEPT is
refused. -/
theorem c192_violated : ¬ C192Statement := by
  intro h
  obtain ⟨c, t, c1, o1, -, -, hr, h1, -, -, -⟩ := pending_answers
  have hx : SmExtra 0x42 0x39 := Or.inl ⟨rfl, Or.inr (Or.inl rfl)⟩
  have h3 := h _ c t 0 0x8a 0x42 _ c1 o1 0x39 [50] hr hx (by decide) h1
  obtain ⟨c2, h4, -⟩ := c192_refused c 0 0x8a 0x42 0x39 _ c1 o1 [50] hx (by decide) (by decide) h1
  rw [h4] at h3
  cases h3

end Verif.Props
