import Verif.Sm.Pdu
import Verif.Spec.Sm
/-!
# C76, C77, C78: session management messages
-/
namespace Verif.Props
open Verif Verif.Sm Verif.Gsm

/-! ## C76: PDP addresses -/

/-- The address of the model seen as one of the standard. -/
def specAddr (a : PdpAddr) : Spec.Sm.Addr := ⟨a.ty, a.v4, a.v6⟩

/-- The value of an information element of a message. -/
def ieValue (b : Octets) (ofs len : Nat) : Octets := (b.drop ofs).take len

/-- C76: what is encoded is the requested address, and what is decoded is the address the element
contains, for every element inside a message; an element that holds no valid address is refused. -/
def C76Statement : Prop :=
  (∀ a : PdpAddr, (specAddr a).Expressible → Spec.Sm.address (encAddr a) = some (specAddr a)) ∧
  (∀ (b : Octets) (ofs len : Nat), ofs + len ≤ b.length → len < 256 →
    match Spec.Sm.address (ieValue b ofs len) with
    | some a => ∃ a', decAddr b ofs len = .ok a' ∧ specAddr a' = a
    | none => decAddr b ofs len = .err .einval)

theorem toNat_ofNat_lt {n : Nat} (h : n < 256) : (UInt8.ofNat n).toNat = n := by
  simp [UInt8.toNat_ofNat']
  omega

theorem c76_encode_partial (a : PdpAddr) (h : (specAddr a).Expressible) :
    Spec.Sm.address (encAddr a) = some (specAddr a) := by
  obtain ⟨ty, v4, v6⟩ := a
  obtain ⟨h1, h2, h3⟩ := h
  simp only [specAddr] at h1 h2 h3 ⊢
  have hty : ty < 256 := by omega
  unfold encAddr Spec.Sm.address
  have h0 : (1 : UInt8).toNat % 16 = 1 := by decide
  simp only
  rw [if_pos h0, toNat_ofNat_lt hty]
  unfold Spec.Sm.addrInfo encAddrTail
  rcases h1 with ⟨rfl, rfl⟩ | ⟨rfl, rfl⟩ | rfl
  · cases v4 with
    | none => rfl
    | some x => simp [tyIpv6, tyIpv4v6, h2 x rfl]
  · cases v6 with
    | none => rfl
    | some x => simp [tyIpv6, h3 x rfl]
  · cases v4 with
    | none =>
      cases v6 with
      | none => rfl
      | some y => simp [tyIpv6, tyIpv4v6, h3 y rfl]
    | some x =>
      cases v6 with
      | none => simp [tyIpv6, tyIpv4v6, h2 x rfl]
      | some y =>
        have hx := h2 x rfl
        have hy := h3 y rfl
        simp [tyIpv6, tyIpv4v6, hx, hy, List.drop_left' hx, List.take_left' hx]

example : (specAddr ⟨0x8D, some [10, 0, 0, 1], some (List.replicate 16 7)⟩).Expressible := by
  refine ⟨by decide, ?_, ?_⟩ <;> intro x h <;> simp [specAddr] at h <;> subst h <;> rfl

/-- The decoder does what the standard says for every element with at least its two leading octets, except
an IPv4v6 address with an IPv6 address only. -/
theorem c76_decode_partial (b : Octets) (ofs len : Nat) (hin : ofs + len ≤ b.length) (hl : len < 256)
    (h2 : 2 ≤ len) (hx : ¬(len = 18 ∧ (b.getD (ofs + 1) 0).toNat = 0x8D)) :
    match Spec.Sm.address (ieValue b ofs len) with
    | some a => ∃ a', decAddr b ofs len = .ok a' ∧ specAddr a' = a
    | none => decAddr b ofs len = .err .einval := by
  have h0 : ofs < b.length := by omega
  have h1 : ofs + 1 < b.length := by omega
  have hv : ieValue b ofs len = b[ofs] :: b[ofs + 1] :: ((b.drop (ofs + 2)).take (len - 2)) := by
    unfold ieValue
    rw [List.drop_eq_getElem_cons h0, List.drop_eq_getElem_cons h1]
    obtain ⟨k, rfl⟩ : ∃ k, len = k + 2 := ⟨len - 2, by omega⟩
    rfl
  have hd : b.getD (ofs + 1) 0 = b[ofs + 1] := by simp [h1]
  rw [hd] at hx
  rw [hv]
  unfold Spec.Sm.address decAddr
  rw [rd_of_lt h0]
  simp only [Res.bind_ok]
  by_cases ho : b[ofs].toNat % 16 = 1
  · rw [if_pos ho, if_neg (by simpa using ho), rd_of_lt h1]
    simp only [Res.bind_ok]
    have hlen : (len % 65536 + 65536 - 2) % 65536 = len - 2 := by omega
    rw [hlen]
    have htl : ((b.drop (ofs + 2)).take (len - 2)).length = len - 2 := by
      simp; omega
    generalize hty : b[ofs + 1].toNat = ty at *
    unfold Spec.Sm.addrInfo decAddrTail
    rw [htl]
    have e4 : ∀ n, ofs + 2 + n ≤ b.length → rdN b (ofs + 2) n = .ok ((b.drop (ofs + 2)).take n) := by
      intro n hn; unfold rdN; rw [if_pos hn]
    by_cases t1 : ty = tyIpv4
    · rw [if_pos (show ty = 0x21 from t1), if_pos t1]
      by_cases c0 : len - 2 = 0
      · simp [c0, specAddr]
      · rw [if_neg c0]
        by_cases c4 : len - 2 = 4
        · rw [if_pos c4, if_pos c4, e4 4 (by omega), c4]
          exact ⟨_, rfl, rfl⟩
        · rw [if_neg c4, if_neg c4, if_pos c0]
    · rw [if_neg (show ¬ ty = 0x21 from t1), if_neg t1]
      by_cases t2 : ty = tyIpv6
      · rw [if_pos (show ty = 0x57 from t2), if_pos t2]
        by_cases c0 : len - 2 = 0
        · simp [c0, specAddr]
        · rw [if_neg c0]
          by_cases c4 : len - 2 = 16
          · rw [if_pos c4, if_pos c4, e4 16 (by omega), c4]
            exact ⟨_, rfl, rfl⟩
          · rw [if_neg c4, if_neg c4, if_pos c0]
      · rw [if_neg (show ¬ ty = 0x57 from t2), if_neg t2]
        by_cases t3 : ty = tyIpv4v6
        · rw [if_pos (show ty = 0x8D from t3), if_pos t3]
          have c16 : len - 2 ≠ 16 := fun h => hx ⟨by omega, t3⟩
          by_cases c0 : len - 2 = 0
          · simp [c0, specAddr]
          · rw [if_neg c0, if_neg c16, if_neg c16]
            by_cases c4 : len - 2 = 4
            · rw [if_pos c4, if_pos c4, e4 4 (by omega), c4]
              exact ⟨_, rfl, rfl⟩
            · rw [if_neg c4, if_neg c4]
              by_cases c20 : len - 2 = 20
              · rw [if_pos c20, if_pos c20, e4 4 (by omega), c20]
                have e6 : rdN b (ofs + 6) 16 = .ok ((b.drop (ofs + 6)).take 16) := by
                  unfold rdN; rw [if_pos (by omega)]
                simp only [Res.bind_ok, e6]
                refine ⟨_, rfl, ?_⟩
                simp only [specAddr]
                rw [List.take_take, List.drop_take, List.drop_drop]
                simp
              · rw [if_neg c20, if_neg c20, if_pos c0]
        · rw [if_neg (show ¬ ty = 0x8D from t3), if_neg t3]
  · rw [if_neg ho, if_pos ho]

example : 2 ≤ 22 ∧ ¬((22 : Nat) = 18 ∧ (([0x8D] : Octets).getD 0 0).toNat = 0x8D) := by decide

/-- The address the encoder itself produces for "IPv4v6, IPv6 only" is decoded to another one. -/
theorem c76_violated : ¬ C76Statement := by
  intro h
  have h1 := h.2 ([1, 0x8D, 1, 2, 3, 4, 5, 6, 7, 8, 9, 10, 11, 12, 13, 14, 15, 16, 0, 0, 0, 0]) 0 18
    (by decide) (by decide)
  have e1 : Spec.Sm.address (ieValue ([1, 0x8D, 1, 2, 3, 4, 5, 6, 7, 8, 9, 10, 11, 12, 13, 14, 15, 16, 0, 0, 0, 0]) 0 18)
      = some ⟨0x8D, none, some [1, 2, 3, 4, 5, 6, 7, 8, 9, 10, 11, 12, 13, 14, 15, 16]⟩ := by decide +kernel
  rw [e1] at h1
  obtain ⟨a', h2, h3⟩ := h1
  have e2 : decAddr ([1, 0x8D, 1, 2, 3, 4, 5, 6, 7, 8, 9, 10, 11, 12, 13, 14, 15, 16, 0, 0, 0, 0]) 0 18
      = .ok ⟨0x8D, none, some [5, 6, 7, 8, 9, 10, 11, 12, 13, 14, 15, 16, 0, 0, 0, 0]⟩ := by decide +kernel
  rw [e2] at h2
  cases h2
  exact absurd h3 (by decide)

/-! ## C77: decoding stays inside the message -/

/-- C77: whatever the network sends, decoding an ACCEPT or a REJECT reads only octets of the message. -/
def C77Statement : Prop :=
  ∀ (s : Sme) (b : Octets), (rxAckBody s b).2.Safe ∧ (rxRejBody s b).2.Safe

/-- An ACCEPT that ends in a PDP address element of length 0. -/
theorem c77_violated : ¬ C77Statement := by
  intro h
  have h1 := (h ⟨0, 5, 3, ⟨0x21, none, none⟩, 0, List.replicate 22 0, 0, [], [], 0, .pending, .t3380, 0⟩
    [0x8a, 0x42, 3, 0, 4, 0x2b, 0]).1
  revert h1
  decide +kernel

/-- An ACCEPT with an IPv4v6 element that holds an IPv6 address makes the decoder read four octets behind
the element. -/
theorem c77_violated_ipv6 :
    (rxAckBody ⟨0, 5, 3, ⟨0x21, none, none⟩, 0, List.replicate 22 0, 0, [], [], 0, .pending, .t3380, 0⟩
      ([0x8a, 0x42, 3, 0, 4, 0x2b, 18, 1, 0x8D] ++ List.replicate 16 9)).2 = .ub .outOfBounds := by
  decide +kernel

/-- The PDP address element of an ACCEPT has its two leading octets, and is not an IPv4v6 element with
an IPv6 address only. -/
def AddrElementOk (b : Octets) (pos : Nat) : Prop :=
  ∀ ies e, ieParse smTlvDef b pos = .ok ies → ieGet ies iePdpAddr = some e →
    2 ≤ e.len ∧ ¬(e.len = 18 ∧ (b.getD (e.ofs + 1) 0).toNat = 0x8D)

theorem ieGet_mem {l : List Ie} {t : Nat} {e : Ie} (h : ieGet l t = some e) : e ∈ l :=
  List.mem_of_find?_eq_some h

theorem takePco_safe (s : Sme) (b : Octets) (ies : List Ie) (h : ∀ e, ieGet ies iePco = some e → e.within b) :
    (takePco s b ies).2.Safe := by
  unfold takePco
  cases hg : ieGet ies iePco with
  | none => simp
  | some e =>
    simp only
    split
    · simp
    · have : rdN b e.ofs e.len = .ok ((b.drop e.ofs).take e.len) := by
        unfold rdN; exact if_pos (h e hg)
      rw [this]; simp

theorem decAddr_safe (b : Octets) (ofs len : Nat) (hin : ofs + len ≤ b.length) (h2 : 2 ≤ len)
    (hl : len < 65536)
    (hx : ¬(len = 18 ∧ (b.getD (ofs + 1) 0).toNat = 0x8D)) : (decAddr b ofs len).Safe := by
  have h0 : ofs < b.length := by omega
  have h1 : ofs + 1 < b.length := by omega
  have hd : b.getD (ofs + 1) 0 = b[ofs + 1] := by simp [h1]
  rw [hd] at hx
  unfold decAddr
  rw [rd_of_lt h0]
  simp only [Res.bind_ok]
  split
  · simp
  · rw [rd_of_lt h1]
    simp only [Res.bind_ok]
    have hlen : (len % 65536 + 65536 - 2) % 65536 = len - 2 := by omega
    rw [hlen]
    generalize hty : b[ofs + 1].toNat = ty at *
    unfold decAddrTail
    have e : ∀ o n, o + n ≤ b.length → rdN b o n = .ok ((b.drop o).take n) := by
      intro o n hn; unfold rdN; rw [if_pos hn]
    split
    · split
      · rw [e _ _ (by omega)]; simp
      · split <;> simp
    · split
      · split
        · rw [e _ _ (by omega)]; simp
        · split <;> simp
      · split
        · split
          · rw [e _ _ (by omega)]; simp
          · split
            · rename_i t _ c
              exact absurd ⟨by omega, t⟩ hx
            · split
              · rw [e _ _ (by omega)]
                simp only [Res.bind_ok]
                rw [e _ _ (by omega)]; simp
              · split <;> simp
        · simp

/-- TLV elements have a one octet length. -/
theorem ie_len_lt {b : Octets} {pos : Nat} {ies : List Ie} (hp : ieParse smTlvDef b pos = .ok ies) :
    ∀ e ∈ ies, e.len < 256 := by
  unfold ieParse at hp
  generalize b.length = fuel at hp
  induction fuel generalizing pos ies with
  | zero => simp [ieParseFrom] at hp; subst hp; simp
  | succ n ih =>
    unfold ieParseFrom at hp
    split at hp
    · cases hp; simp
    · rename_i hlt
      cases h1 : ieParseOne smTlvDef b pos with
      | err e => rw [h1] at hp; simp at hp
      | ub f => rw [h1] at hp; simp at hp
      | ok r =>
        obtain ⟨ie, k⟩ := r
        rw [h1] at hp
        simp only at hp
        cases h2 : ieParseFrom smTlvDef b n (pos + k) with
        | err e => rw [h2] at hp; simp at hp
        | ub f => rw [h2] at hp; simp at hp
        | ok l =>
          rw [h2] at hp
          simp only [Res.ok.injEq] at hp
          subst hp
          intro e he
          rcases List.mem_cons.mp he with rfl | he
          · clear ih h2
            unfold ieParseOne at h1
            rw [rd_of_lt (by omega)] at h1
            simp only [Res.bind_ok] at h1
            split at h1
            · cases h1; simp
            · generalize (b[pos]'(by omega)).toNat = t at h1
              split at h1
              · rename_i m hm
                split at h1
                · cases h1
                · cases h1
                  simp only
                  unfold smTlvDef at hm
                  split at hm
                  · cases hm
                  split at hm
                  · cases hm
                  split at hm
                  · cases hm
                  split at hm
                  · cases hm; omega
                  split at hm
                  · cases hm; omega
                  · cases hm
              · split at h1
                · cases h1
                · cases h1; simp
              · split at h1
                · cases h1
                · rw [rd_of_lt (by omega)] at h1
                  simp only [Res.bind_ok] at h1
                  split at h1
                  · cases h1
                  · cases h1
                    exact UInt8.toNat_lt _
              · cases h1
              · cases h1
          · exact ih h2 e he

theorem takeAddr_safe (s : Sme) (b : Octets) (pos : Nat) (ies : List Ie)
    (hp : ieParse smTlvDef b pos = .ok ies) (hok : AddrElementOk b pos) :
    (takeAddr s b ies).2.Safe := by
  unfold takeAddr
  cases hg : ieGet ies iePdpAddr with
  | none => simp
  | some e =>
    simp only
    have hw := ieParse_within hp hg
    have hl := ie_len_lt hp e (ieGet_mem hg)
    obtain ⟨h2, hx⟩ := hok ies e hp hg
    have := decAddr_safe b e.ofs e.len hw h2 (by omega) hx
    cases hd : decAddr b e.ofs e.len with
    | ok a => simp
    | err x => simp
    | ub f => rw [hd] at this; simp at this

theorem rejBody_safe (s : Sme) (b : Octets) : (rxRejBody s b).2.Safe := by
  unfold rxRejBody
  split
  · simp
  · unfold rdK
    rw [rd_of_lt (by omega)]
    simp only
    split
    · have : (rejTlvs s b 3).2.Safe := by
        unfold rejTlvs
        have hps := ieParse_safe smTlvDef b 3
        cases hp : ieParse smTlvDef b 3 with
        | err e => simp
        | ub f => rw [hp] at hps; simp at hps
        | ok ies => exact takePco_safe s b ies (fun e he => ieParse_within hp he)
      generalize rejTlvs s b 3 = r at this ⊢
      obtain ⟨s1, r1⟩ := r
      cases r1 with
      | ok a => simp
      | err e => simp
      | ub f => simp at this
    · simp

/-- Decoding a REJECT is always safe; decoding an ACCEPT is safe if its PDP address element is long enough
and not an IPv4v6 element with an IPv6 address only. -/
theorem c77_partial (s : Sme) (b : Octets) :
    (rxRejBody s b).2.Safe ∧
    (AddrElementOk b (5 + (b.getD 3 0).toNat) → (rxAckBody s b).2.Safe) := by
  refine ⟨rejBody_safe s b, fun hok => ?_⟩
  unfold rxAckBody
  split
  · simp
  · rename_i h4
    unfold rdK
    rw [rd_of_lt (show 2 < b.length by omega), rd_of_lt (show 3 < b.length by omega)]
    have hd : b.getD 3 0 = b[3]'(by omega) := by
      simp [show 3 < b.length by omega]
    rw [hd] at hok
    generalize (b[3]'(by omega)).toNat = ql at hok ⊢
    simp only
    split
    · simp
    · split
      · simp
      · split
        · simp
        · rw [rd_of_lt (by omega)]
          simp only
          split
          · unfold ackTlvs
            have hps := ieParse_safe smTlvDef b (5 + ql)
            cases hp : ieParse smTlvDef b (5 + ql) with
            | err e => simp
            | ub f => rw [hp] at hps; simp at hps
            | ok ies =>
              simp only
              generalize hs : ({ s with sapi := _, qos := _, radioPrio := _ } : Sme) = s3
              have h1 := takeAddr_safe s3 b (5 + ql) ies hp hok
              cases ht : takeAddr s3 b ies with
              | mk s1 r =>
                rw [ht] at h1
                cases r with
                | ok u => exact takePco_safe s1 b ies (fun e he => ieParse_within hp he)
                | err e => simp
                | ub f => simp at h1
          · simp

example : AddrElementOk [0x8a, 0x42, 3, 0, 4, 0x2b, 6, 1, 0x21, 10, 0, 0, 1] 5 := by
  intro ies e h1 h2
  have e1 : ieParse smTlvDef [0x8a, 0x42, 3, 0, 4, 0x2b, 6, 1, 0x21, 10, 0, 0, 1] 5 =
      .ok [⟨0x2b, 7, 6⟩] := by decide +kernel
  rw [e1] at h1
  cases h1
  have e2 : ieGet [⟨0x2b, 7, 6⟩] iePdpAddr = some ⟨0x2b, 7, 6⟩ := by decide
  rw [e2] at h2
  cases h2
  decide

/-! ## C78: the ACTIVATE PDP CONTEXT REQUEST carries what the user asked for -/

/-- A context whose fields have the sizes of the C structure. -/
structure SmeSized (s : Sme) : Prop where
  nsapi : s.nsapi < 16
  sapi : s.sapi < 256
  ti : s.ti < 8
  qos : s.qos.length = 22
  qosLen : s.qosLen ≤ 22
  addr : (specAddr s.addr).Expressible
  apn : s.apn.length ≤ 99
  pco : s.pco.length ≤ 255

theorem encAddr_length (a : PdpAddr) (h : (specAddr a).Expressible) : (encAddr a).length ≤ 22 := by
  obtain ⟨ty, v4, v6⟩ := a
  obtain ⟨h1, h2, h3⟩ := h
  simp only [specAddr] at h1 h2 h3
  have l4 : (v4.getD []).length ≤ 4 := by
    cases v4 with
    | none => simp
    | some x => simp [h2 x rfl]
  have l6 : (v6.getD []).length ≤ 16 := by
    cases v6 with
    | none => simp
    | some x => simp [h3 x rfl]
  unfold encAddr encAddrTail
  simp only [List.length_cons]
  split
  · omega
  · split
    · cases v4 <;> cases v6 <;> simp_all
    · omega

theorem apnEncGo_length (cur s : Octets) : (apnEncGo cur s).length = cur.length + s.length + 1 := by
  induction s generalizing cur with
  | nil => simp [apnEncGo]
  | cons x s ih =>
    unfold apnEncGo
    split
    · simp [ih]
    · rw [ih]; simp; omega

theorem takeLv_append (v r : Octets) (h : v.length < 256) :
    Spec.Sm.takeLv (UInt8.ofNat v.length :: (v ++ r)) = some (v, r) := by
  unfold Spec.Sm.takeLv
  simp only
  rw [toNat_ofNat_lt h, if_neg (by simp), List.take_left' rfl, List.drop_left' rfl]

/-- The element of the access point name. -/
def wantedApn (s : Sme) : Option Octets := if s.apn = [] then none else some (apnEnc s.apn)
/-- The element of the protocol configuration options. -/
def wantedPco (s : Sme) : Option Octets := if s.pco = [] then none else some s.pco

/-- C78: a reader of the standard's message format finds in the message exactly the NSAPI, LLC SAPI, QoS,
PDP address, access point name and protocol configuration options of the context. -/
theorem c78_request (s : Sme) (h : SmeSized s) :
    Spec.Sm.readRequest (buildActReq s) =
      some ⟨s.ti ^^^ 8, s.nsapi, s.sapi, s.qos.take s.qosLen, encAddr s.addr, wantedApn s, wantedPco s⟩ ∧
    Spec.Sm.address (encAddr s.addr) = some (specAddr s.addr) := by
  refine ⟨?_, c76_encode_partial _ h.addr⟩
  have hti : s.ti ^^^ 8 < 16 := Nat.xor_lt_two_pow (n := 4) (by have := h.ti; omega) (by omega)
  have hq : (s.qos.take s.qosLen).length = s.qosLen := by
    rw [List.length_take, h.qos]; have := h.qosLen; omega
  have ha := encAddr_length s.addr h.addr
  have hap : (apnEnc s.apn).length ≤ 100 := by
    unfold apnEnc
    rw [apnEncGo_length]; have := h.apn; simp only [List.length_nil]; omega
  unfold buildActReq
  simp only [List.cons_append, List.nil_append, List.append_assoc]
  unfold Spec.Sm.readRequest
  simp only
  have hhd : (UInt8.ofNat (0x0a + 16 * (s.ti ^^^ 8))).toNat = 0x0a + 16 * (s.ti ^^^ 8) :=
    toNat_ofNat_lt (by omega)
  rw [hhd, if_pos ⟨by omega, by decide⟩]
  have e1 : UInt8.ofNat s.qosLen = UInt8.ofNat (s.qos.take s.qosLen).length := by rw [hq]
  rw [e1, takeLv_append _ _ (by rw [hq]; have := h.qosLen; omega)]
  simp only
  rw [takeLv_append _ _ (by omega)]
  simp only
  rw [toNat_ofNat_lt (by have := h.nsapi; omega), toNat_ofNat_lt h.sapi]
  have hdiv : (0x0a + 16 * (s.ti ^^^ 8)) / 16 = s.ti ^^^ 8 := by omega
  rw [hdiv]
  have hpco : ∀ r : Octets, r = (if s.pco.length > 0 then
      UInt8.ofNat iePco :: UInt8.ofNat s.pco.length :: s.pco else []) →
      Spec.Sm.takeOpt 0x27 r = some (wantedPco s, []) ∧ Spec.Sm.takeOpt 0x28 r = some (none, r) := by
    intro r hr
    unfold wantedPco
    by_cases hp : s.pco = []
    · rw [hp] at hr ⊢; simp at hr; subst hr; exact ⟨rfl, rfl⟩
    · have hl : s.pco.length > 0 := by
        cases hh : s.pco with
        | nil => exact absurd hh hp
        | cons x l => simp
      rw [if_pos hl] at hr
      subst hr
      rw [if_neg hp]
      have e27 : UInt8.ofNat iePco = 0x27 := by decide
      rw [e27]
      refine ⟨?_, ?_⟩
      · unfold Spec.Sm.takeOpt
        simp only [if_true]
        have := takeLv_append s.pco [] (by have := h.pco; omega)
        rw [List.append_nil] at this
        rw [this]
      · unfold Spec.Sm.takeOpt
        simp only
        rw [if_neg (by decide)]
  obtain ⟨hp1, hp2⟩ := hpco _ rfl
  generalize (if s.pco.length > 0 then
      UInt8.ofNat iePco :: UInt8.ofNat s.pco.length :: s.pco else []) = r at hp1 hp2 ⊢
  unfold wantedApn
  by_cases hapn : s.apn = []
  · rw [if_pos hapn, if_pos hapn]
    simp only [List.nil_append]
    rw [hp2]
    simp only
    rw [hp1]
  · rw [if_neg hapn, if_neg hapn]
    simp only [List.cons_append]
    have e28 : UInt8.ofNat ieApn = 0x28 := by decide
    have : Spec.Sm.takeOpt 0x28 (UInt8.ofNat ieApn ::
        UInt8.ofNat (apnEnc s.apn).length :: (apnEnc s.apn ++ r)) = some (some (apnEnc s.apn), r) := by
      rw [e28]
      unfold Spec.Sm.takeOpt
      simp only [if_true]
      rw [takeLv_append _ _ (by omega)]
    rw [this]
    simp only
    rw [hp1]

theorem labels_apnEncGo (cur s : Octets) (h : cur.length + s.length ≤ 255) (n : Nat)
    (hn : (apnEncGo cur s).length ≤ n) :
    Spec.Sm.labels n (apnEncGo cur s) = some (Spec.Sm.splitDots cur s) := by
  induction s generalizing cur n with
  | nil =>
    obtain ⟨k, rfl⟩ : ∃ k, n = k + 1 := ⟨n - 1, by simp [apnEncGo] at hn; omega⟩
    unfold apnEncGo Spec.Sm.labels Spec.Sm.splitDots
    rw [toNat_ofNat_lt (by simp at h; omega)]
    simp [Spec.Sm.labels]
  | cons x s ih =>
    rw [apnEncGo_length] at hn
    simp only [List.length_cons] at h hn
    unfold apnEncGo Spec.Sm.splitDots
    split
    · obtain ⟨k, rfl⟩ : ∃ k, n = k + 1 := ⟨n - 1, by omega⟩
      rw [List.cons_append]
      unfold Spec.Sm.labels
      rw [toNat_ofNat_lt (by omega), if_neg (by simp), List.drop_left' rfl, List.take_left' rfl,
        ih [] (by simp; omega) k (by rw [apnEncGo_length]; simp; omega)]
    · exact ih _ (by simp; omega) n (by rw [apnEncGo_length]; simp; omega)

/-- The access point name on the wire is the list of the labels of the name. -/
theorem c78_apn (s : Sme) (h : SmeSized s) :
    Spec.Sm.labels 100 (apnEnc s.apn) = some (Spec.Sm.splitDots [] s.apn) := by
  have := h.apn
  exact labels_apnEncGo [] s.apn (by simp; omega) 100 (by rw [apnEncGo_length]; simp; omega)

example : SmeSized ⟨7, 5, 3, ⟨0x21, some [10, 0, 0, 1], none⟩, 0, List.replicate 22 0, 3, [0x77, 0x2e, 0x78], [1, 2],
    0, .pending, .t3380, 0⟩ := by
  refine ⟨by decide, by decide, by decide, by decide, by decide, ⟨by decide, ?_, ?_⟩, by decide, by decide⟩
  · intro x h; simp [specAddr] at h; subst h; rfl
  · intro x h; simp [specAddr] at h

end Verif.Props
