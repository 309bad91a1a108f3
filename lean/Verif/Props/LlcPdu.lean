import Verif.Llc.PduLemmas

/-!
# C03-C06: LLC frames on the wire
-/
namespace Verif.Props

open Verif.Llc

/-- A SAPI that TS 44.064 Table 2 does not reserve (written out independently of the decoder). -/
abbrev SapiUsable (s : Nat) : Prop := s ∈ [1, 2, 3, 5, 7, 8, 9, 0xb, 0xe]

theorem sapiUsable_iff (s : Nat) : SapiUsable s ↔ s < 16 ∧ sapiReserved s = false := by
  unfold SapiUsable sapiReserved
  constructor
  · intro h
    simp only [List.mem_cons, List.not_mem_nil, or_false] at h
    rcases h with h | h | h | h | h | h | h | h | h <;> subst h <;> decide
  · rintro ⟨h, h2⟩
    have : ∀ s < 16, (s = 0x00 || s = 0x04 || s = 0x06 || s = 0x0a || s = 0x0c || s = 0x0d || s = 0x0f)
        = false → s ∈ [1, 2, 3, 5, 7, 8, 9, 0xb, 0xe] := by decide
    exact this s h h2

/-- **C03.** Every UI frame encoded for a usable SAPI decodes at the receiver to the same SAPI, C/R,
N(U), E and PM bits and payload, and its FCS checks.  The length limit is the receiver's 16-bit
length arithmetic; integrity protection (MAC) is refused by the encoder
(`c03_mac_refused`). -/
theorem c03_ui_roundtrip (p : Pdu) (hfmt : p.fmt = .UI) (hsapi : SapiUsable p.sapi)
    (hseq : p.seqTx < 512) (hmac : p.flags.macPres = false) (hlen : p.data.length + 3 < 2 ^ 16) :
    ∃ w d, encode p = .ok w ∧ decode w = .ok d ∧ fcsOk d w = true ∧
      d.fmt = .UI ∧ d.func = .UI ∧ d.sapi = p.sapi ∧ d.seqTx = p.seqTx ∧
      d.flags = { cmdRsp := p.flags.cmdRsp, encMode := p.flags.encMode,
                  protMode := p.flags.protMode } ∧
      d.payload w = p.data := by
  obtain ⟨hs, hr⟩ := (sapiUsable_iff _).1 hsapi
  obtain ⟨h1, h2, h3, h4, h5, h6, h7⟩ := ui_ctrl_facts p.seqTx hseq p.flags.encMode p.flags.protMode
  obtain ⟨c0, hc0⟩ : ∃ c0, c0 = UInt8.ofNat ((0xc0 ||| bit false 4) ||| ((p.seqTx >>> 6) &&& 0x07)) :=
    ⟨_, rfl⟩
  obtain ⟨c1, hc1⟩ : ∃ c1, c1 = UInt8.ofNat ((((p.seqTx &&& 0x3f) <<< 2) ||| bit p.flags.encMode 1) |||
      bit p.flags.protMode 0) := ⟨_, rfl⟩
  rw [← hc0] at h1 h2 h3 h4 h5
  rw [← hc1] at h5 h6 h7
  have henc : encode p = .ok ((encAddr p :: c0 :: c1 :: p.data) ++
      fcsOctets (fcs (encCover p.flags.protMode (encAddr p :: c0 :: c1 :: p.data)))) := by
    simp [encode, encCtrl, hfmt, encCtrlUI, hmac, hc0, hc1]
  generalize hw : (encAddr p :: c0 :: c1 :: p.data) ++
      fcsOctets (fcs (encCover p.flags.protMode (encAddr p :: c0 :: c1 :: p.data))) = w at henc
  have hrd1 : rd w 1 = .ok c0.toNat := by rw [← hw]; simp [rd]
  have hrd2 : rd w 2 = .ok c1.toNat := by rw [← hw]; simp [rd]
  have hdec : decode w = .ok {
      fcs := fcs (encCover p.flags.protMode (encAddr p :: c0 :: c1 :: p.data)),
      sapi := p.sapi, fmt := .UI, func := .UI, seqTx := p.seqTx,
      flags := { cmdRsp := p.flags.cmdRsp, encMode := p.flags.encMode, protMode := p.flags.protMode },
      data := some (3, p.data.length) } := by
    conv_lhs => rw [← hw]
    rw [decode_encoded p hs hr _ (fcs_lt _), hw]
    unfold decodeCtrl
    simp only [List.length_cons]
    rw [if_neg (by omega), hrd1]
    simp only [Res.bind_ok]
    rw [if_neg h1, if_neg h2, if_pos h3]
    unfold decodeUI
    rw [if_neg (by omega), hrd1, hrd2]
    simp only [Res.bind_ok, h4, h5, h6, h7]
    simp
  refine ⟨w, _, henc, hdec, ?_, rfl, rfl, rfl, rfl, rfl, ?_⟩
  · unfold fcsOk
    rw [beq_iff_eq, ← hw]
    rw [encCover_append p.flags.protMode _ _ _ rfl (fun _ => by simpa using hlen)
      (Or.inl (by simpa using hlen))]
  · unfold Decoded.payload
    rw [← hw]
    simp [fcsOctets]

/-- Non-vacuity of C03. -/
example : ∃ p : Pdu, p.fmt = .UI ∧ SapiUsable p.sapi ∧ p.seqTx < 512 ∧ p.flags.macPres = false ∧
    p.data.length + 3 < 2 ^ 16 ∧ p.data = [1, 2, 3] :=
  ⟨{ sapi := 3, fmt := .UI, func := .UI, seqTx := 511, data := [1, 2, 3] }, by decide⟩

/-- The encoder refuses frames that would need a message authentication code. -/
theorem c03_mac_refused (p : Pdu) (hfmt : p.fmt = .UI) (hmac : p.flags.macPres = true) :
    encode p = .err .enotsup := by
  simp [encode, encCtrl, hfmt, hmac]

/-! ## C04: U frames -/

/-- **C04, full statement**: every U frame that is encoded decodes to the same function, P/F bit, SAPI,
C/R bit and (XID) payload with a correct FCS. -/
def URoundTrip (p : Pdu) : Prop :=
  ∃ w d, encode p = .ok w ∧ decode w = .ok d ∧ fcsOk d w = true ∧
    d.fmt = .U ∧ d.func = p.func ∧ d.sapi = p.sapi ∧ d.flags.cmdRsp = p.flags.cmdRsp ∧
    d.flags.follFin = p.flags.follFin ∧ d.flags.encMode = false ∧
    d.payload w = (if p.func = .XID then p.data else [])

/-- The U functions. -/
abbrev UFunc (f : Func) : Prop := f ∈ [Func.SABM, .DISC, .UA, .DM, .FRMR, .XID, .NULL]

/-- **C04 (part).** The round trip holds whenever the sender's FCS covers the whole frame: the frame
was marked protected, or the frame has at most seven octets before the FCS (so at most five octets of
XID payload).  Missing: frames longer than that which the library itself sends without the
protected-mode flag, for which the property is false (`c04_u_roundtrip_violated`). -/
theorem c04_u_roundtrip_partial (p : Pdu) (hfmt : p.fmt = .U) (hfunc : UFunc p.func)
    (hsapi : SapiUsable p.sapi) (hmac : p.flags.macPres = false) (hlen : p.data.length + 2 < 2 ^ 16)
    (hprot : p.flags.protMode = true ∨ p.data.length ≤ 5) : URoundTrip p := by
  obtain ⟨hs, hr⟩ := (sapiUsable_iff _).1 hsapi
  obtain ⟨u, hu, hu16⟩ : ∃ u, encUCode p.func = some u ∧ u < 16 := by
    unfold UFunc at hfunc
    simp only [List.mem_cons, List.not_mem_nil, or_false] at hfunc
    rcases hfunc with h | h | h | h | h | h | h <;> rw [h] <;> exact ⟨_, rfl, by decide⟩
  obtain ⟨h1, h2, h3, h4, h5⟩ := u_ctrl_facts p.flags.follFin u hu16
  obtain ⟨c0, hc0⟩ : ∃ c0, c0 = UInt8.ofNat ((0xe0 ||| bit p.flags.follFin 4) ||| u) := ⟨_, rfl⟩
  rw [← hc0] at h1 h2 h3 h4 h5
  have hcov : encCover p.flags.protMode (encAddr p :: c0 :: p.data) = encAddr p :: c0 :: p.data := by
    unfold encCover unprotCover
    rcases hprot with h | h
    · simp [h]
    · split
      · rfl
      · apply List.take_of_length_le; simp; omega
  have henc : encode p = .ok ((encAddr p :: c0 :: p.data) ++
      fcsOctets (fcs (encAddr p :: c0 :: p.data))) := by
    have : encCtrl p = .ok [c0] := by simp [encCtrl, hfmt, encCtrlU, hu, hc0]
    simp only [encode, this, hmac]
    simp only [Bool.false_eq_true, if_false, List.cons_append, List.nil_append]
    rw [hcov]
  generalize hw : (encAddr p :: c0 :: p.data) ++ fcsOctets (fcs (encAddr p :: c0 :: p.data)) = w at henc
  have hrd1 : rd w 1 = .ok c0.toNat := by rw [← hw]; simp [rd]
  have hdec : decode w = .ok {
      fcs := fcs (encAddr p :: c0 :: p.data), sapi := p.sapi, fmt := .U, func := p.func,
      flags := { cmdRsp := p.flags.cmdRsp, protMode := true, follFin := p.flags.follFin },
      data := if p.func = .XID then some (2, p.data.length) else none } := by
    conv_lhs => rw [← hw]
    rw [decode_encoded p hs hr _ (fcs_lt _), hw]
    unfold decodeCtrl
    simp only [List.length_cons]
    rw [if_neg (by omega), hrd1]
    simp only [Res.bind_ok]
    rw [if_neg h1, if_neg h2, if_neg h3]
    unfold decodeU
    rw [if_neg (by omega), hrd1]
    simp only [Res.bind_ok, h4, h5]
    unfold UFunc at hfunc
    simp only [List.mem_cons, List.not_mem_nil, or_false] at hfunc
    rcases hfunc with h | h | h | h | h | h | h <;>
      (rw [h] at hu; injection hu with hu; subst hu; rw [h]; simp)
  refine ⟨w, _, henc, hdec, ?_, rfl, rfl, rfl, rfl, rfl, rfl, ?_⟩
  · unfold fcsOk
    rw [beq_iff_eq, ← hw]
    rw [encCover_append true _ _ _ rfl (fun _ => by simpa using hlen)
      (Or.inl (by simpa using hlen))]
    rfl
  · unfold Decoded.payload
    rw [← hw]
    by_cases hx : p.func = .XID
    · simp [hx, fcsOctets]
    · simp [hx]

/-- Non-vacuity of the partial C04: an unprotected XID with five octets of payload. -/
example : URoundTrip
    { sapi := 3, fmt := .U, func := .XID, flags := { cmdRsp := true }, data := [1, 2, 3, 4, 5] } :=
  c04_u_roundtrip_partial _ rfl (by simp [UFunc]) (by simp [SapiUsable]) rfl (by decide) (by decide)

/-- **C04 is violated** by frames as the library sends them (`gprs_llc_lle_tx_xid`,
/repo/src/llc/llc.c:257-300, never sets the protected-mode flag): the receiver computes the FCS over
the whole frame, the sender over its first seven octets. -/
theorem c04_u_roundtrip_violated :
    ¬ ∀ p : Pdu, p.fmt = .U → UFunc p.func → SapiUsable p.sapi → p.flags.macPres = false →
      p.data.length + 2 < 2 ^ 16 → URoundTrip p := by
  intro h
  obtain ⟨w, d, hw, hd, hok, _⟩ := h { sapi := 1, fmt := .U, func := .XID, data := [0, 0, 0, 0, 0, 0] }
    rfl (by simp [UFunc]) (by simp [SapiUsable]) rfl (by decide)
  have hw' : encode { sapi := 1, fmt := .U, func := .XID, data := [0, 0, 0, 0, 0, 0] } =
      .ok [1, 235, 0, 0, 0, 0, 0, 0, 224, 112, 114] := by decide +kernel
  rw [hw'] at hw
  injection hw with hw
  subst hw
  have : (decode [1, 235, 0, 0, 0, 0, 0, 0, 224, 112, 114]).bind
      (fun d => .ok (fcsOk d [1, 235, 0, 0, 0, 0, 0, 0, 224, 112, 114])) = .ok false := by
    decide +kernel
  rw [hd] at this
  simp only [Res.bind] at this
  injection this with this
  rw [hok] at this
  cases this

/-! ## C05: I and S frames -/

/-- **C05, full statement**: an I or S frame that is encoded decodes to the same function, sequence
numbers, A bit, SACK bitmap and payload, with a correct FCS. -/
def ISRoundTrip (p : Pdu) : Prop :=
  ∃ w d, encode p = .ok w ∧ decode w = .ok d ∧ fcsOk d w = true ∧
    d.fmt = p.fmt ∧ d.func = p.func ∧ d.sapi = p.sapi ∧ d.flags.cmdRsp = p.flags.cmdRsp ∧
    d.flags.ackReq = p.flags.ackReq ∧ d.seqRx = p.seqRx ∧ (p.fmt = .I → d.seqTx = p.seqTx) ∧
    (p.func = .SACK → d.sackR = p.sackR) ∧ (p.fmt = .I → d.payload w = p.data)

/-- What a sender may legitimately ask for in an I or S frame. -/
structure ISValid (p : Pdu) : Prop where
  fmt : p.fmt = .I ∨ p.fmt = .S
  func : p.func ∈ [Func.RR, .ACK, .RNR, .SACK]
  sapi : SapiUsable p.sapi
  seqTx : p.seqTx < 512
  seqRx : p.seqRx < 512
  sack : p.func = .SACK → 0 < p.sackR.length ∧ p.sackR.length ≤ 32
  mac : p.flags.macPres = false
  prot : p.flags.protMode = true
  len : p.data.length < 60000
  noDataInS : p.fmt = .S → p.data = []

/-- **C05 (part).** I frames with function RR or ACK survive, and S frames with function RR or ACK and
the A bit clear.  Missing (and false, see `c05_violated_*`): functions RNR and SACK, and the A bit in
S frames. -/
theorem c05_is_roundtrip_partial (p : Pdu) (hv : ISValid p) (hf : p.func = .RR ∨ p.func = .ACK)
    (ha : p.fmt = .S → p.flags.ackReq = false) : ISRoundTrip p := by
  obtain ⟨hs, hr⟩ := (sapiUsable_iff _).1 hv.sapi
  have hnsack : p.func ≠ .SACK := by rcases hf with h | h <;> simp [h]
  obtain ⟨k, hk, hk2, hkf⟩ : ∃ k, encSupCode p.func = k ∧ k < 2 ∧
      (k = 0 ∧ p.func = .RR ∨ k = 1 ∧ p.func = .ACK) := by
    rcases hf with h | h
    · exact ⟨0, by rw [h]; decide, by decide, Or.inl ⟨rfl, h⟩⟩
    · exact ⟨1, by rw [h]; decide, by decide, Or.inr ⟨rfl, h⟩⟩
  have hlen := hv.len
  rcases hv.fmt with hfmt | hfmt
  · obtain ⟨r1, r2, r3⟩ := i_ctrl_facts_rx p.seqRx hv.seqRx k (by omega)
    obtain ⟨t1, t2, t3, t4⟩ := i_ctrl_facts_tx p.seqTx hv.seqTx p.flags.ackReq _ r3
    obtain ⟨c0, hc0⟩ : ∃ c0, c0 = UInt8.ofNat (bit p.flags.ackReq 6 ||| ((p.seqTx >>> 4) &&& 0x1f)) :=
      ⟨_, rfl⟩
    obtain ⟨c1, hc1⟩ : ∃ c1, c1 = UInt8.ofNat (((p.seqTx &&& 0x0f) <<< 4) ||| ((p.seqRx >>> 6) &&& 0x07)) :=
      ⟨_, rfl⟩
    obtain ⟨c2, hc2⟩ : ∃ c2, c2 = UInt8.ofNat (((p.seqRx &&& 0x3f) <<< 2) ||| k) := ⟨_, rfl⟩
    rw [← hc0] at t1 t2 t3
    rw [← hc1] at t3 t4
    rw [← hc2] at r1 r2
    rw [← t4] at r1
    have henc : encode p = .ok ((encAddr p :: c0 :: c1 :: c2 :: p.data) ++
        fcsOctets (fcs (encAddr p :: c0 :: c1 :: c2 :: p.data))) := by
      have : encCtrl p = .ok [c0, c1, c2] := by
        simp [encCtrl, hfmt, encCtrlI, hnsack, hk, hc0, hc1, hc2]
      simp [encode, this, hv.mac, encCover, hv.prot]
    generalize hw : (encAddr p :: c0 :: c1 :: c2 :: p.data) ++
        fcsOctets (fcs (encAddr p :: c0 :: c1 :: c2 :: p.data)) = w at henc
    have hrd1 : rd w 1 = .ok c0.toNat := by rw [← hw]; simp [rd]
    have hrd2 : rd w 2 = .ok c1.toNat := by rw [← hw]; simp [rd]
    have hrd3 : rd w 3 = .ok c2.toNat := by rw [← hw]; simp [rd]
    have hdec : decode w = .ok {
        fcs := fcs (encAddr p :: c0 :: c1 :: c2 :: p.data), sapi := p.sapi, fmt := .I,
        func := p.func, seqTx := p.seqTx, seqRx := p.seqRx,
        flags := { cmdRsp := p.flags.cmdRsp, protMode := true, ackReq := p.flags.ackReq },
        data := some (4, p.data.length) } := by
      conv_lhs => rw [← hw]
      rw [decode_encoded p hs hr _ (fcs_lt _), hw]
      unfold decodeCtrl
      simp only [List.length_cons]
      rw [if_neg (by omega), hrd1]
      simp only [Res.bind_ok]
      rw [if_pos t1]
      unfold decodeI
      rw [if_neg (by omega), hrd1, hrd2, hrd3]
      simp only [Res.bind_ok, t2, t3, r1, r2]
      rcases hkf with ⟨h0, hfn⟩ | ⟨h0, hfn⟩ <;> subst h0 <;> simp [hfn]
    refine ⟨w, _, henc, hdec, ?_, hfmt.symm, rfl, rfl, rfl, rfl, rfl, fun _ => rfl,
      fun h => absurd h hnsack, fun _ => ?_⟩
    · unfold fcsOk
      rw [beq_iff_eq, ← hw, encCover_append true _ _ _ rfl (fun _ => by simp; omega)
        (Or.inl (by simp; omega))]
      rfl
    · unfold Decoded.payload
      rw [← hw]
      simp [fcsOctets]
  · obtain ⟨s1, s2, s3, s4, s5⟩ := s_ctrl_facts p.seqRx hv.seqRx k (by omega)
    obtain ⟨c0, hc0⟩ : ∃ c0, c0 = UInt8.ofNat (0x80 ||| ((p.seqRx >>> 6) &&& 0x07)) := ⟨_, rfl⟩
    obtain ⟨c1, hc1⟩ : ∃ c1, c1 = UInt8.ofNat ((bit false 5 ||| ((p.seqRx &&& 0x3f) <<< 2)) ||| k) :=
      ⟨_, rfl⟩
    rw [← hc0] at s1 s2 s3 s4
    rw [← hc1] at s4 s5
    have hd0 := hv.noDataInS hfmt
    have henc : encode p = .ok ((encAddr p :: c0 :: c1 :: []) ++
        fcsOctets (fcs (encAddr p :: c0 :: c1 :: []))) := by
      have : encCtrl p = .ok [c0, c1] := by
        simp [encCtrl, hfmt, encCtrlS, hnsack, hk, ha hfmt, hc0, hc1]
      simp [encode, this, hv.mac, encCover, hv.prot, hd0]
    generalize hw : (encAddr p :: c0 :: c1 :: []) ++ fcsOctets (fcs (encAddr p :: c0 :: c1 :: [])) = w
      at henc
    have hrd1 : rd w 1 = .ok c0.toNat := by rw [← hw]; simp [rd]
    have hrd2 : rd w 2 = .ok c1.toNat := by rw [← hw]; simp [rd]
    have hdec : decode w = .ok {
        fcs := fcs (encAddr p :: c0 :: c1 :: []), sapi := p.sapi, fmt := .S,
        func := p.func, seqRx := p.seqRx,
        flags := { cmdRsp := p.flags.cmdRsp, protMode := true, ackReq := false } } := by
      conv_lhs => rw [← hw]
      rw [decode_encoded p hs hr _ (fcs_lt _), hw]
      unfold decodeCtrl
      simp only [List.length_cons]
      rw [if_neg (by omega), hrd1]
      simp only [Res.bind_ok]
      rw [if_neg s1, if_pos s2]
      unfold decodeS
      rw [if_neg (by simp), hrd1, hrd2]
      simp only [Res.bind_ok, s3, s4, s5]
      rcases hkf with ⟨h0, hfn⟩ | ⟨h0, hfn⟩ <;> subst h0 <;> simp [hfn]
    refine ⟨w, _, henc, hdec, ?_, hfmt.symm, rfl, rfl, rfl, (ha hfmt).symm, rfl,
      fun h => by (rw [hfmt] at h; cases h), fun h => absurd h hnsack,
      fun h => by (rw [hfmt] at h; cases h)⟩
    unfold fcsOk
    rw [beq_iff_eq, ← hw, encCover_append true _ _ _ rfl (fun _ => by simp) (Or.inl (by simp))]
    rfl

/-- Non-vacuity of the partial C05. -/
example : ISValid { sapi := 11, fmt := .I, func := .ACK, seqTx := 300, seqRx := 511,
                    flags := { ackReq := true, protMode := true }, data := [1] } := by
  constructor <;> decide

/-- Helper for the negative results: if the round trip held, the decoder's verdict on the encoder's
output would have the right function and A bit. -/
theorem ISRoundTrip.observe {p : Pdu} (h : ISRoundTrip p) :
    ((encode p).bind fun w => (decode w).bind fun d => .ok (d.func, d.flags.ackReq, d.seqRx)) =
      .ok (p.func, p.flags.ackReq, p.seqRx) := by
  obtain ⟨w, d, hw, hd, _, _, hfn, _, _, ha, hrx, _⟩ := h
  simp [hw, hd, Res.bind, hfn, ha, hrx]

/-- **C05 is violated** for function SACK: it is decoded as RNR
(/repo/src/llc/llc_pdu.c:172 against 363-377). -/
theorem c05_violated_sack : ∃ p, ISValid p ∧ p.func = .SACK ∧ ¬ ISRoundTrip p := by
  refine ⟨{ sapi := 3, fmt := .I, func := .SACK, sackR := [0xff], flags := { protMode := true } },
    by constructor <;> decide, rfl, fun h => ?_⟩
  have := h.observe
  revert this
  decide +kernel

/-- **C05 is violated** for function RNR: its frames are decoded as SACK or rejected. -/
theorem c05_violated_rnr : ∃ p, ISValid p ∧ p.func = .RNR ∧ ¬ ISRoundTrip p := by
  refine ⟨{ sapi := 3, fmt := .S, func := .RNR, flags := { protMode := true } },
    by constructor <;> decide, rfl, fun h => ?_⟩
  have := h.observe
  revert this
  decide +kernel

/-- **C05 is violated** for the A bit in S frames: it is lost and N(R) is altered
(/repo/src/llc/llc_pdu.c:189 against 390). -/
theorem c05_violated_ack_req : ∃ p, ISValid p ∧ p.fmt = .S ∧ p.func = .RR ∧ p.flags.ackReq = true ∧
    ¬ ISRoundTrip p := by
  refine ⟨{ sapi := 3, fmt := .S, func := .RR, seqRx := 5,
            flags := { ackReq := true, protMode := true } },
    by constructor <;> decide, rfl, rfl, rfl, fun h => ?_⟩
  have := h.observe
  revert this
  decide +kernel

/-! ## C06: decoder memory safety -/

/-- The payload a decoded frame reports lies inside the received octets before the FCS. -/
def PayloadInside (w : Octets) (d : Decoded) : Prop :=
  ∀ off len, d.data = some (off, len) → off + len ≤ w.length - 3

/-- **C06, full statement**: decoding never reads outside the received octets nor writes outside the
result record, and a reported payload lies inside the received octets. -/
def LlcDecoderSafe : Prop :=
  ∀ w : Octets, (decode w).Safe ∧ ∀ d, decode w = .ok d → PayloadInside w d

/-- The frame has the S format with function code 3 (SACK), written in terms of the received octets. -/
def IsSFormatSack (w : Octets) : Prop :=
  ∃ a c0 c1 rest, w = a :: c0 :: c1 :: rest ∧ c0.toNat &&& 0xc0 = 0x80 ∧ c1.toNat &&& 0x03 = 3

theorem decode_shape (w : Octets) : 
    (∃ e, decode w = .err e) ∨
    (∃ a c0 tl f s fl, w = a :: c0 :: tl ∧ 3 ≤ tl.length ∧ decode w =
      decodeCtrl w { fcs := f, sapi := s, flags := { protMode := true, cmdRsp := fl } }
        (tl.length - 2)) := by
  by_cases h3 : w.length < 3
  · left; exact ⟨.einval, by unfold decode; simp [h3]⟩
  by_cases h4 : w.length - 3 < 1
  · left; refine ⟨.einval, ?_⟩
    unfold decode
    rw [if_neg h3, rd_of_lt (by omega), rd_of_lt (by omega), rd_of_lt (by omega)]
    simp [h4]
  match w, h3, h4 with
  | [_], h3, _ => simp at h3
  | [_, _], h3, _ => simp at h3
  | [_, _, _], _, h4 => simp at h4
  | [a, x, y, z], _, _ =>
    left
    unfold decode
    simp only [List.length_cons, List.length_nil, rd]
    simp
    split
    · split
      · exact ⟨_, rfl⟩
      · exact ⟨.einval, by simp [decodeCtrl]⟩
    · exact ⟨_, rfl⟩
  | a :: c0 :: x :: y :: z :: tl, h3, h4 =>
    have e : decode (a :: c0 :: x :: y :: z :: tl) =
      if a.toNat &&& 0x80 != 0 then .err .einval
      else if sapiReserved (a.toNat &&& 0x0f) then .err .einval
      else decodeCtrl (a :: c0 :: x :: y :: z :: tl)
        { fcs := ((a :: c0 :: x :: y :: z :: tl)[tl.length + 2]'(by simp)).toNat |||
            (((a :: c0 :: x :: y :: z :: tl)[tl.length + 3]'(by simp)).toNat <<< 8) |||
            (((a :: c0 :: x :: y :: z :: tl)[tl.length + 4]'(by simp)).toNat <<< 16),
          sapi := a.toNat &&& 0x0f,
          flags := { protMode := true, cmdRsp := a.toNat &&& 0x40 != 0 } } (tl.length + 1) := by
      unfold decode
      rw [if_neg h3]
      have l5 : (a :: c0 :: x :: y :: z :: tl).length = tl.length + 5 := by simp
      rw [rd_of_lt (i := (a :: c0 :: x :: y :: z :: tl).length - 3) (by simp),
        rd_of_lt (i := (a :: c0 :: x :: y :: z :: tl).length - 2) (by simp),
        rd_of_lt (i := (a :: c0 :: x :: y :: z :: tl).length - 1) (by simp)]
      simp only [Res.bind_ok]
      rw [if_neg h4, rd_of_lt (by simp)]
      simp [l5]
    rw [e]
    split
    · left; exact ⟨_, rfl⟩
    · split
      · left; exact ⟨_, rfl⟩
      · right
        exact ⟨a, c0, x :: y :: z :: tl, _, _, _, rfl, by simp, rfl⟩

theorem decodeI_cases (w : Octets) (p : Decoded) (dl : Nat) (hl : w.length = dl + 4) :
    (∃ e, decodeI w p dl = .err e) ∨
    (∃ d, decodeI w p dl = .ok d ∧ d.fmt = .I ∧ d.func ≠ .SACK ∧ d.data = some (4, dl - 3) ∧
      3 ≤ dl) ∨
    (∃ d, decodeI w p dl = .ok d ∧ d.fmt = .I ∧ d.func = .SACK ∧ d.sackR.length ≤ 32 ∧
      3 + d.sackR.length ≤ dl ∧
      d.data = some (4 + (1 + d.sackR.length), szSub (dl - 3) (1 + d.sackR.length))) := by
  unfold decodeI
  by_cases h : dl < 3
  · left; exact ⟨_, if_pos h⟩
  rw [if_neg h, rd_of_lt (by omega), rd_of_lt (by omega), rd_of_lt (by omega)]
  simp only [Res.bind_ok]
  split
  · right; left; exact ⟨_, rfl, rfl, by simp, rfl, by omega⟩
  · right; left; exact ⟨_, rfl, rfl, by simp, rfl, by omega⟩
  · right; left; exact ⟨_, rfl, rfl, by simp, rfl, by omega⟩
  · split
    · left; exact ⟨_, rfl⟩
    · rw [rd_of_lt (by omega)]
      simp only [Res.bind_ok]
      generalize hk : (w[4]'(by omega)).toNat &&& 0x1f = k
      have hk32 : k < 32 := by
        rw [← hk]; exact Nat.lt_of_le_of_lt Nat.and_le_right (by omega)
      split
      · left; exact ⟨_, rfl⟩
      · have hcp : sackCopy w 5 (k + 1) = .ok ((w.drop 5).take (k + 1)) := by
          unfold sackCopy; rw [if_pos (by omega), rdN_of_le (by omega)]
        rw [hcp]
        have hlen : ((w.drop 5).take (k + 1)).length = k + 1 := by simp; omega
        right; right
        refine ⟨_, rfl, rfl, rfl, ?_, ?_, ?_⟩
        · rw [hlen]; omega
        · rw [hlen]; omega
        · simp only [hlen]

theorem decodeS_cases (w : Octets) (p : Decoded) (dl : Nat) (hl : w.length = dl + 4) :
    (∃ e, decodeS w p dl = .err e) ∨
    (∃ d, decodeS w p dl = .ok d ∧ d.fmt = .S ∧ d.data = none) ∨
    (decodeS w p dl = .ub .outOfBounds ∧ 2 ≤ dl ∧ 32 < (dl - 2) % 256 ∧
      ∃ h : 2 < w.length, (w[2]).toNat &&& 0x03 = 3) := by
  unfold decodeS
  by_cases h : dl < 2
  · left; exact ⟨_, if_pos h⟩
  rw [if_neg h, rd_of_lt (by omega), rd_of_lt (by omega)]
  simp only [Res.bind_ok]
  split
  · right; left; exact ⟨_, rfl, rfl, rfl⟩
  · right; left; exact ⟨_, rfl, rfl, rfl⟩
  · right; left; exact ⟨_, rfl, rfl, rfl⟩
  · rename_i h0 h1 h2
    split
    · left; exact ⟨_, rfl⟩
    · by_cases h32 : (dl - 2) % 256 ≤ 32
      · right; left
        have hcp : sackCopy w 3 ((dl - 2) % 256) = .ok ((w.drop 3).take ((dl - 2) % 256)) := by
          unfold sackCopy
          have := Nat.mod_le (dl - 2) 256
          rw [if_pos h32, rdN_of_le (by omega)]
        rw [hcp]
        exact ⟨_, rfl, rfl, rfl⟩
      · right; right
        have hcp : sackCopy w 3 ((dl - 2) % 256) = .ub .outOfBounds := by
          unfold sackCopy; rw [if_neg h32]
        rw [hcp]
        refine ⟨rfl, by omega, by omega, by omega, ?_⟩
        have hlt : (w[2]'(by omega)).toNat &&& 0x03 < 4 :=
          Nat.lt_of_le_of_lt Nat.and_le_right (by omega)
        generalize (w[2]'(by omega)).toNat &&& 0x03 = k at h0 h1 h2 hlt
        match k, hlt with
        | 0, _ => exact absurd rfl h0
        | 1, _ => exact absurd rfl h1
        | 2, _ => exact absurd rfl h2
        | 3, _ => rfl

theorem decodeUI_cases (w : Octets) (p : Decoded) (dl : Nat) (hl : w.length = dl + 4) :
    (∃ e, decodeUI w p dl = .err e) ∨
    (∃ d n, decodeUI w p dl = .ok d ∧ d.fmt = .UI ∧ d.data = some (3, n) ∧ n + 2 ≤ dl) := by
  unfold decodeUI
  by_cases h : dl < 2
  · left; exact ⟨_, if_pos h⟩
  rw [if_neg h, rd_of_lt (by omega), rd_of_lt (by omega)]
  simp only [Res.bind_ok]
  split
  · split
    · left; exact ⟨_, rfl⟩
    · have hsz : szSub (dl - 2) 4 = dl - 2 - 4 := if_pos (by omega)
      rw [hsz, rdN_of_le (by omega)]
      right; exact ⟨_, _, rfl, rfl, rfl, by omega⟩
  · right; exact ⟨_, _, rfl, rfl, rfl, by omega⟩

theorem decodeU_cases (w : Octets) (p : Decoded) (dl : Nat) (hl : w.length = dl + 4) :
    (∃ e, decodeU w p dl = .err e) ∨
    (∃ d, decodeU w p dl = .ok d ∧ d.fmt = .U ∧ (d.data = none ∨ d.data = some (2, dl - 1)) ∧
      1 ≤ dl) := by
  unfold decodeU
  by_cases h : dl < 1
  · left; exact ⟨_, if_pos h⟩
  rw [if_neg h, rd_of_lt (by omega)]
  simp only [Res.bind_ok]
  split <;> first
    | (right; exact ⟨_, rfl, rfl, Or.inl rfl, by omega⟩)
    | (right; exact ⟨_, rfl, rfl, Or.inr rfl, by omega⟩)
    | (left; exact ⟨_, rfl⟩)

/-- **C06 (part).** Decoding any octet string is free of out-of-bounds accesses unless it is an S
format SACK frame with more than 32 bitmap octets (longer than 38 octets in total); and a reported
payload lies inside the received octets unless the frame is an I format SACK frame whose bitmap takes
exactly all octets up to the FCS.  Missing: these two frame shapes, for which the property is false. -/
theorem c06_decoder_safe_partial (w : Octets) :
    (¬ (decode w).Safe → IsSFormatSack w ∧ 38 < w.length) ∧
    ∀ d, decode w = .ok d →
      ¬ (d.fmt = .I ∧ d.func = .SACK ∧ w.length = 7 + d.sackR.length) → w.length < 2 ^ 64 →
      PayloadInside w d := by
  rcases decode_shape w with ⟨e, he⟩ | ⟨a, c0, tl, f, s, fl, hw, htl, hdec⟩
  · constructor
    · intro h; rw [he] at h; simp at h
    · intro d hd; rw [he] at hd; cases hd
  · have hl : w.length = (tl.length - 2) + 4 := by rw [hw]; simp; omega
    generalize hdl : tl.length - 2 = dl at *
    have hc : rd w 1 = .ok c0.toNat := by rw [hw]; simp [rd]
    rw [hdec]
    unfold decodeCtrl
    rw [if_neg (by omega), hc]
    simp only [Res.bind_ok]
    split
    · rcases decodeI_cases w _ dl hl with ⟨e, he⟩ | ⟨d, he, h1, h2, h3, h4⟩ |
        ⟨d, he, h1, h2, h3, h4, h5⟩
      · rw [he]; exact ⟨fun h => by simp at h, fun d hd => by cases hd⟩
      · rw [he]
        refine ⟨fun h => by simp at h, fun d' hd => ?_⟩
        injection hd with hd; subst hd
        intro _ _ off len hdat
        rw [h3] at hdat
        injection hdat with hdat; injection hdat with ho hn
        omega
      · rw [he]
        refine ⟨fun h => by simp at h, fun d' hd => ?_⟩
        injection hd with hd; subst hd
        intro hne h64 off len hdat
        rw [h5] at hdat
        injection hdat with hdat; injection hdat with ho hn
        have : w.length ≠ 7 + d.sackR.length := fun h => hne ⟨h1, h2, h⟩
        unfold szSub at hn
        have hge : 1 + d.sackR.length ≤ dl - 3 := by omega
        rw [if_pos hge] at hn
        omega
    · split
      · rename_i hI hS
        rcases decodeS_cases w _ dl hl with ⟨e, he⟩ | ⟨d, he, h1, h2⟩ | ⟨he, h1, h2, h3, h4⟩
        · rw [he]; exact ⟨fun h => by simp at h, fun d hd => by cases hd⟩
        · rw [he]
          refine ⟨fun h => by simp at h, fun d' hd => ?_⟩
          injection hd with hd; subst hd
          intro _ _ off len hdat
          rw [h2] at hdat; cases hdat
        · rw [he]
          refine ⟨fun _ => ⟨?_, ?_⟩, fun d hd => by cases hd⟩
          · obtain ⟨c1, rest, htl'⟩ : ∃ c1 rest, tl = c1 :: rest := by
              cases tl with
              | nil => simp at htl
              | cons c r => exact ⟨c, r, rfl⟩
            subst htl'
            refine ⟨a, c0, c1, rest, hw, hS, ?_⟩
            simp only [hw] at h4
            simpa using h4
          · have := Nat.mod_le (dl - 2) 256
            omega
      · split
        · rcases decodeUI_cases w _ dl hl with ⟨e, he⟩ | ⟨d, n, he, h1, h2, h3⟩
          · rw [he]; exact ⟨fun h => by simp at h, fun d hd => by cases hd⟩
          · rw [he]
            refine ⟨fun h => by simp at h, fun d' hd => ?_⟩
            injection hd with hd; subst hd
            intro _ _ off len hdat
            rw [h2] at hdat
            injection hdat with hdat; injection hdat with ho hn
            omega
        · rcases decodeU_cases w _ dl hl with ⟨e, he⟩ | ⟨d, he, h1, h2, h3⟩
          · rw [he]; exact ⟨fun h => by simp at h, fun d hd => by cases hd⟩
          · rw [he]
            refine ⟨fun h => by simp at h, fun d' hd => ?_⟩
            injection hd with hd; subst hd
            intro _ _ off len hdat
            rcases h2 with h2 | h2 <;> rw [h2] at hdat
            · cases hdat
            · injection hdat with hdat; injection hdat with ho hn
              omega

/-- A concrete frame covered by the partial C06 (a valid UI frame). -/
example : (decode [0x01, 0xc0, 0x01, 0x05, 0, 0, 0]).Safe := by decide +kernel

/-- **C06 is violated** (1): an S format SACK frame with 33 bitmap octets overruns the 32-octet
`sack.r` array (/repo/src/llc/llc_pdu.c:406-411). -/
theorem c06_violated_overflow :
    ¬ (decode ([0x01, 0x80, 0x03] ++ List.replicate 33 0 ++ [0, 0, 0])).Safe := by decide +kernel

/-- **C06 is violated** (2): an I format SACK frame whose bitmap takes all octets makes the decoder
report a payload of `2^64 - 1` octets (/repo/src/llc/llc_pdu.c:369-375). -/
theorem c06_violated_underflow : ∃ d,
    decode [0x01, 0x00, 0x00, 0x03, 0x00, 0, 0, 0] = .ok d ∧ d.data = some (6, 2 ^ 64 - 1) := by
  exact ⟨_, rfl, by decide +kernel⟩

/-- Hence the full statement of C06 is false of the code. -/
theorem c06_decoder_safe_violated : ¬ LlcDecoderSafe := by
  intro h
  exact c06_violated_overflow (h _).1

end Verif.Props
