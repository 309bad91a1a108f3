import Verif.Gmm.EntityLemmas
import Verif.Spec.GmmMsg
/-!
# C89, C90, C91: the messages of GMM
-/
namespace Verif.Props
open Verif Verif.Gmm Verif.Gsm
open Verif.Spec.Gmm (readAttachReq AttachReq readRauReq RauReq readDetachReq DetachReq optionalsOf optionals
  requestIes takeLv takeN valueOf ptmsiIdentity value24 identityDigits)

/-! ## The messages recorded in tests/gmm/gmm_prim_ms_test.ok -/

example : buildAttachReq 1 false 0x1234 0x556677 [] zeroRa 44 = some
    [0x08, 0x01, 0x04, 0x97, 0x07, 0x00, 0x00, 0x01, 0x0a, 0x00, 0x05, 0xf4, 0x00, 0x00, 0x12, 0x34, 0x00, 0xf0,
     0x00, 0x00, 0x00, 0x00, 0x00, 0x19, 0x55, 0x66, 0x77, 0x17, 0x16, 0xe1] := by decide +kernel

example : buildIdResp 2 0 [] [4, 2, 3, 4, 2, 3, 4, 2, 3, 4, 2, 3, 4, 2] [] = some
    [0x08, 0x16, 0x08, 0x42, 0x32, 0x24, 0x43, 0x32, 0x24, 0x43, 0xf2] := by decide +kernel

example : buildAuthResp 2 (some [0xac, 0xac, 0xac, 0xac]) true [4, 2, 3, 4, 2, 3, 4, 2, 3, 4, 2, 3, 4, 2, 7, 5] = some
    [0x08, 0x13, 0x02, 0x22, 0xac, 0xac, 0xac, 0xac, 0x23, 0x09, 0x43, 0x32, 0x24, 0x43, 0x32, 0x24, 0x43, 0x72,
     0xf5] := by decide +kernel

example : buildRauReq 3 0 reservedTmsi [0x32, 0xf4, 0x07, 0x00, 0x05, 0x00] 44 =
    [0x08, 0x08, 0x03, 0x32, 0xf4, 0x07, 0x00, 0x05, 0x00, 0x00, 0x17, 0x16, 0x0a, 0x00, 0xe5, 0x02, 0x00, 0x00,
     0xe1] := by decide +kernel

example : buildDetachReq 1 0 0xec999002 =
    [0x08, 0x05, 0x20, 0x0a, 0x00, 0x05, 0xf4, 0xec, 0x99, 0x90, 0x02] := by decide +kernel

/-! ## C89: the layout of requests -/

theorem takeLv_lv {v l : Octets} (h : v.length < 256) : takeLv (lv v ++ l) = some (v, l) := by
  unfold takeLv lv
  have e : (UInt8.ofNat v.length).toNat = v.length := by simp [Nat.mod_eq_of_lt h]
  simp only [List.cons_append, e]
  rw [if_pos (by simp), List.take_left, List.drop_left]

theorem takeN_append {n : Nat} {v l : Octets} (h : v.length = n) : takeN n (v ++ l) = some (v, l) := by
  unfold takeN
  subst h
  rw [if_pos (by simp), List.take_left, List.drop_left]

/-- The optional part of ATTACH REQUEST. -/
theorem attach_optionals (s : Nat) (t : UInt8) :
    optionalsOf requestIes [0x17, t] = some [(0x17, [t])] ∧
    optionalsOf requestIes [0x17, t, 0xe1] = some [(0x17, [t]), (0x0e, [1])] ∧
    optionalsOf requestIes (sigIe s ++ [0x17, t, 0xe1]) =
      some [(0x19, [UInt8.ofNat (s / 0x10000), UInt8.ofNat (s / 0x100), UInt8.ofNat s]), (0x17, [t]),
        (0x0e, [1])] :=
  ⟨rfl, rfl, rfl⟩

theorem miPairs_length : ∀ l : List Nat, (miPairs l).length = (l.length + 1) / 2
  | [] => rfl
  | [_] => by simp [miPairs]
  | _ :: _ :: l => by
    rw [miPairs, List.length_cons, miPairs_length l, List.length_cons, List.length_cons]
    omega

theorem miDigits_length {type : Nat} {l : List Nat} {v : Octets} (h : miDigits type l = some v) :
    v.length = l.length / 2 + 1 := by
  cases l with
  | nil => cases h
  | cons d l =>
    injection h with h; subst h
    rw [List.length_cons, miPairs_length, List.length_cons]

/-- What ATTACH REQUEST has to say: the attach type asked for, the identity (the IMSI, or the P-TMSI), the
old routing area, the READY timer asked for, and, when the mobile station identifies itself by a P-TMSI,
the P-TMSI signature and the type of the P-TMSI. -/
def attachReqWanted (attType : Nat) (withImsi : Bool) (ptmsi sig : Nat) (mi ra : Octets) (t3314 : Nat) :
    AttachReq where
  netCap := [0x97, 0x07, 0x00, 0x00]
  type := UInt8.ofNat (attType % 16)
  cksn := 0
  drx := [10, 0]
  mi := mi
  ra := ra
  raCap := []
  opts :=
    (if withImsi = false ∧ ptmsi ≠ reservedTmsi then
      [(0x19, [UInt8.ofNat (sig / 0x10000), UInt8.ofNat (sig / 0x100), UInt8.ofNat sig])] else []) ++
    [(0x17, [UInt8.ofNat (secsToTmr t3314)])] ++ (if withImsi then [] else [(0x0e, [1])])

/-- C89, what holds: ATTACH REQUEST read by the tables of the standard says what was put into it. -/
theorem c89_attach_partial (attType : Nat) (withImsi : Bool) (ptmsi sig : Nat) (imsi : List Nat)
    (ra : Octets) (t3314 : Nat) (hr : ra.length = 6) (hi : imsi.length ≤ 15) (b : Octets)
    (h : buildAttachReq attType withImsi ptmsi sig imsi ra t3314 = some b) :
    ∃ mi, (if withImsi then miDigits 1 imsi = some mi else mi = ptmsiIdentity ptmsi) ∧
      readAttachReq b = some (attachReqWanted attType withImsi ptmsi sig mi ra t3314) := by
  have key : ∀ mi : Octets, mi.length < 256 →
      readAttachReq ([0x08, 0x01] ++ lv msNetCapDef ++ [UInt8.ofNat (attType % 16)] ++ drxParam ++ lv mi ++ ra ++
        encodeRaAccCap ++ (if withImsi = false ∧ ptmsi ≠ reservedTmsi then sigIe sig else []) ++
        [0x17, UInt8.ofNat (secsToTmr t3314)] ++ (if withImsi then [] else [0xe1])) =
      some (attachReqWanted attType withImsi ptmsi sig mi ra t3314) := by
    intro mi hm
    simp only [List.append_assoc]
    change readAttachReq (0x08 :: 0x01 :: (lv msNetCapDef ++ ([UInt8.ofNat (attType % 16)] ++ (drxParam ++
      (lv mi ++ (ra ++ ([0] ++ _))))))) = _
    unfold readAttachReq
    rw [show Spec.Gmm.bodyOf 0x01 (0x08 :: 0x01 :: _) = some _ from rfl]
    simp only [Option.bind_eq_bind, Option.bind_some]
    rw [takeLv_lv (by decide)]
    simp only [Option.bind_some]
    rw [takeN_append (by rfl)]
    simp only [Option.bind_some]
    rw [takeN_append (by rfl)]
    simp only [Option.bind_some]
    rw [takeLv_lv hm]
    simp only [Option.bind_some]
    rw [takeN_append hr]
    simp only [Option.bind_some]
    rw [show ([0] : Octets) = lv [] from rfl, takeLv_lv (by decide)]
    simp only [Option.bind_some]
    obtain ⟨o1, o2, o3⟩ := attach_optionals sig (UInt8.ofNat (secsToTmr t3314))
    have h16 : ∀ n : Fin 16, UInt8.ofNat n.val % 16 = UInt8.ofNat n.val ∧ UInt8.ofNat n.val / 16 = 0 := by
      decide +kernel
    have h16' := h16 ⟨attType % 16, Nat.mod_lt _ (by decide)⟩
    unfold attachReqWanted
    cases hw : withImsi with
    | true => simp [o1, h16'.1, h16'.2, msNetCapDef, drxParam]
    | false =>
      by_cases hp : ptmsi = reservedTmsi
      · simp [hp, o2, h16'.1, h16'.2, msNetCapDef, drxParam]
      · simp [hp, o3, h16'.1, h16'.2, msNetCapDef, drxParam]
  unfold buildAttachReq at h
  cases withImsi with
  | false =>
    injection h with h; subst h
    exact ⟨_, rfl, key _ (by unfold miTmsi be32; simp)⟩
  | true =>
    simp only [if_true] at h
    cases hm : miDigits 1 imsi with
    | none => rw [hm] at h; cases h
    | some mi =>
      rw [hm] at h
      injection h with h; subst h
      have := miDigits_length hm
      exact ⟨mi, rfl, key mi (by omega)⟩

/-- C89: each of the requests, read by the tables of the standard, says what was put into it. -/
def C89Statement : Prop :=
  (∀ attType withImsi ptmsi sig imsi ra t3314 b, ra.length = 6 → imsi.length ≤ 15 →
    buildAttachReq attType withImsi ptmsi sig imsi ra t3314 = some b →
    ∃ x, readAttachReq b = some x ∧ x.type = UInt8.ofNat (attType % 16) ∧ x.ra = ra ∧
      valueOf x.opts 0x17 = some [UInt8.ofNat (secsToTmr t3314)]) ∧
  (∀ rauType keySeq sig ra t3314, ra.length = 6 → keySeq < 16 →
    ∃ x o, readRauReq (buildRauReq rauType keySeq sig ra t3314) = some x ∧ x.opts = some o ∧
      x.type = UInt8.ofNat (rauType % 8) ∧ x.cksn = UInt8.ofNat keySeq ∧ x.ra = ra ∧
      valueOf o 0x17 = some [UInt8.ofNat (secsToTmr t3314)] ∧ valueOf o 0x27 = some drxParam ∧
      valueOf o 0x31 ≠ none) ∧
  (∀ detType poweroff ptmsi, poweroff < 2 →
    ∃ x o, readDetachReq (buildDetachReq detType poweroff ptmsi) = some x ∧ x.opts = some o ∧
      x.type = UInt8.ofNat (detType % 8) ∧ x.poweroff = UInt8.ofNat poweroff ∧
      valueOf o 0x18 = some (ptmsiIdentity ptmsi))

/-- The optional part of ROUTING AREA UPDATE REQUEST cannot be read, whatever is put into it; what comes
before can. -/
theorem c89_rau_partial (rauType keySeq sig : Nat) (ra : Octets) (t3314 : Nat) (hr : ra.length = 6)
    (hk : keySeq < 256) :
    readRauReq (buildRauReq rauType keySeq sig ra t3314) =
      some ⟨UInt8.ofNat (rauType % 8), UInt8.ofNat (keySeq % 16), ra, [], none⟩ := by
  have h1 : ∀ k : Fin 256, ∀ r : Fin 8, UInt8.ofNat (k.val * 16 ||| r.val) % 16 = UInt8.ofNat r.val ∧
      UInt8.ofNat (k.val * 16 ||| r.val) / 16 = UInt8.ofNat (k.val % 16) := by decide +kernel
  obtain ⟨h2, h3⟩ := h1 ⟨keySeq, hk⟩ ⟨rauType % 8, Nat.mod_lt _ (by decide)⟩
  have o1 : ∀ t, optionalsOf requestIes ([0x17, t] ++ (drxParam ++ (encodeNetCap ++ [0xe1]))) = none := by
    intro t; rfl
  have o2 : ∀ t, optionalsOf requestIes (sigIe sig ++ ([0x17, t] ++ (drxParam ++ (encodeNetCap ++ [0xe1])))) = none := by
    intro t; rfl
  unfold buildRauReq
  simp only [List.append_assoc]
  unfold readRauReq
  rw [show Spec.Gmm.bodyOf 0x08 ([0x08, 0x08] ++ _) = some _ from rfl]
  simp only [Option.bind_eq_bind, Option.bind_some]
  rw [show ∀ l : Octets, List.append [] l = l from fun _ => rfl, takeN_append (by rfl)]
  simp only [Option.bind_some]
  rw [takeN_append hr]
  simp only [Option.bind_some]
  rw [show encodeRaAccCap = lv [] from rfl, takeLv_lv (by decide)]
  simp only [Option.bind_some, List.headD_cons]
  by_cases hs : sig = reservedTmsi
  · rw [if_neg (by simpa using hs), List.nil_append, o1]
    exact congrArg some (by simp only [h2, h3])
  · rw [if_pos hs, o2]
    exact congrArg some (by simp only [h2, h3])

/-- DETACH REQUEST says neither the type nor whether the mobile station is switched off, and its optional
part cannot be read, whatever is put into it. -/
theorem c89_detach_violated (detType poweroff ptmsi : Nat) :
    readDetachReq (buildDetachReq detType poweroff ptmsi) = some ⟨0, 0, none⟩ := by
  have h1 : ∀ d : Fin 8, ∀ p : Fin 2, UInt8.ofNat (d.val * 32 ||| p.val * 16) % 8 = 0 ∧
      UInt8.ofNat (d.val * 32 ||| p.val * 16) / 8 % 2 = 0 := by decide +kernel
  obtain ⟨h2, h3⟩ := h1 ⟨detType % 8, Nat.mod_lt _ (by decide)⟩ ⟨poweroff % 2, Nat.mod_lt _ (by decide)⟩
  have o : optionalsOf requestIes (drxParam ++ lv (miTmsi ptmsi)) = none := rfl
  unfold buildDetachReq readDetachReq
  rw [show Spec.Gmm.bodyOf 0x05 ([0x08, 0x05, UInt8.ofNat (detType % 8 * 32 ||| poweroff % 2 * 16)] ++ drxParam ++
    lv (miTmsi ptmsi)) = some (UInt8.ofNat (detType % 8 * 32 ||| poweroff % 2 * 16) :: (drxParam ++ lv (miTmsi ptmsi)))
    from rfl]
  simp only [Option.bind_eq_bind, Option.bind_some]
  change some (DetachReq.mk (UInt8.ofNat (detType % 8 * 32 ||| poweroff % 2 * 16) % 8)
    (UInt8.ofNat (detType % 8 * 32 ||| poweroff % 2 * 16) / 8 % 2) (optionalsOf requestIes (drxParam ++ lv (miTmsi ptmsi)))) = _
  rw [h2, h3, o]

theorem c89_violated : ¬ C89Statement := by
  intro h
  obtain ⟨x, o, h1, h2, _⟩ := h.2.2 1 0 0 (by decide)
  rw [c89_detach_violated] at h1
  injection h1 with h1; subst h1
  cases h2

/-- The requests are built. -/
example : buildAttachReq 1 true 0 0 [2, 4, 1] zeroRa 44 ≠ none := by decide +kernel

/-! ## C90: the capabilities -/

/-- C90: the requests tell the network the radio access capability of the mobile station: the mandatory
element has a value. -/
def C90Statement : Prop :=
  (∀ attType withImsi ptmsi sig imsi ra t3314 b x, ra.length = 6 → imsi.length ≤ 15 →
    buildAttachReq attType withImsi ptmsi sig imsi ra t3314 = some b → readAttachReq b = some x → x.raCap ≠ []) ∧
  (∀ rauType keySeq sig ra t3314 x, ra.length = 6 → keySeq < 16 →
    readRauReq (buildRauReq rauType keySeq sig ra t3314) = some x → x.raCap ≠ [])

/-- It never has one: the element is written into a bit vector that is too short for it. -/
theorem c90_violated_always :
    (∀ attType withImsi ptmsi sig imsi ra t3314 b x, ra.length = 6 → imsi.length ≤ 15 →
      buildAttachReq attType withImsi ptmsi sig imsi ra t3314 = some b → readAttachReq b = some x → x.raCap = []) ∧
    (∀ rauType keySeq sig ra t3314 x, ra.length = 6 → keySeq < 16 →
      readRauReq (buildRauReq rauType keySeq sig ra t3314) = some x → x.raCap = []) := by
  constructor
  · intro attType withImsi ptmsi sig imsi ra t3314 b x h1 h2 h3 h4
    obtain ⟨mi, _, h5⟩ := c89_attach_partial attType withImsi ptmsi sig imsi ra t3314 h1 h2 b h3
    rw [h5] at h4
    injection h4 with h4; subst h4; rfl
  · intro rauType keySeq sig ra t3314 x h1 h2 h3
    rw [c89_rau_partial rauType keySeq sig ra t3314 h1 (by omega)] at h3
    injection h3 with h3; subst h3; rfl

theorem c90_violated : ¬ C90Statement := fun h =>
  h.2 3 0 0 zeroRa 44 _ rfl (by decide) (c89_rau_partial 3 0 0 zeroRa 44 rfl (by decide)) rfl

/-! ## C91: identities -/

theorem pairs_digits : ∀ l : List Nat, (∀ d ∈ l, d < 10) →
    (miPairs l).flatMap (fun y => [y.toNat % 16, y.toNat / 16]) = l ++ (if l.length % 2 = 1 then [15] else [])
  | [], _ => rfl
  | [d], h => by
    have hd := h d List.mem_cons_self
    have k : ∀ d : Fin 10, (UInt8.ofNat (0xf0 + d.val)).toNat % 16 = d.val ∧
        (UInt8.ofNat (0xf0 + d.val)).toNat / 16 = 15 := by decide +kernel
    obtain ⟨k1, k2⟩ := k ⟨d, hd⟩
    simp only [miPairs, List.flatMap_cons, List.flatMap_nil, List.append_nil]
    rw [k1, k2]
    rfl
  | d :: e :: l, h => by
    have hd := h d List.mem_cons_self
    have he := h e (List.mem_cons_of_mem _ List.mem_cons_self)
    have k : ∀ d e : Fin 10, (UInt8.ofNat (e.val * 16 + d.val)).toNat % 16 = d.val ∧
        (UInt8.ofNat (e.val * 16 + d.val)).toNat / 16 = e.val := by decide +kernel
    obtain ⟨k1, k2⟩ := k ⟨d, hd⟩ ⟨e, he⟩
    have ih := pairs_digits l fun x hx => h x (List.mem_cons_of_mem _ (List.mem_cons_of_mem _ hx))
    simp only [miPairs, List.flatMap_cons]
    rw [k1, k2, ih]
    have e : (d :: e :: l).length % 2 = l.length % 2 := by simp only [List.length_cons]; omega
    simp only [e, List.cons_append, List.nil_append]

/-- C91: the coding of an IMSI, IMEI or IMEISV is read back as its digits and its type. -/
theorem c91_digits (type : Nat) (ht : type < 8) (l : List Nat) (hl : ∀ d ∈ l, d < 10) {v : Octets}
    (h : miDigits type l = some v) : identityDigits v = some (type, l) := by
  cases l with
  | nil => cases h
  | cons d l =>
    injection h with h; subst h
    have hd := hl d List.mem_cons_self
    have hp := pairs_digits l fun x hx => hl x (List.mem_cons_of_mem _ hx)
    have k : ∀ t : Fin 8, ∀ d : Fin 10,
        ((UInt8.ofNat (d.val * 16 + 8 + t.val)).toNat / 16 = d.val ∧
          (UInt8.ofNat (d.val * 16 + 8 + t.val)).toNat / 8 % 2 = 1 ∧
          (UInt8.ofNat (d.val * 16 + 8 + t.val)).toNat % 8 = t.val) ∧
        ((UInt8.ofNat (d.val * 16 + 0 + t.val)).toNat / 16 = d.val ∧
          (UInt8.ofNat (d.val * 16 + 0 + t.val)).toNat / 8 % 2 = 0 ∧
          (UInt8.ofNat (d.val * 16 + 0 + t.val)).toNat % 8 = t.val) := by decide +kernel
    obtain ⟨⟨a1, a2, a3⟩, b1, b2, b3⟩ := k ⟨type, ht⟩ ⟨d, hd⟩
    unfold identityDigits
    dsimp only
    rw [hp]
    by_cases e : l.length % 2 = 0
    · rw [if_pos e]
      rw [a1, a2, a3, if_pos rfl, if_neg (by omega), List.append_nil]
    · rw [if_neg e]
      rw [b1, b2, b3, if_neg (by decide), if_pos (by omega : l.length % 2 = 1)]
      rw [if_pos (by rw [← List.cons_append, List.getLast?_append]; rfl), ← List.cons_append,
        List.dropLast_concat]

/-- What the network is told when it asks for an identity: the identity of that type. -/
def idAnswer (g : Gmme) (type : Nat) (v : Octets) : Prop :=
  (type = 1 ∧ identityDigits v = some (1, g.imsi)) ∨ (type = 2 ∧ identityDigits v = some (2, g.imei)) ∨
  (type = 3 ∧ identityDigits v = some (3, g.imeisv)) ∨ (type = 4 ∧ v = ptmsiIdentity g.ptmsi)

/-- There is an identity of that type. -/
def idKnown (g : Gmme) (type : Nat) : Prop :=
  (type = 1 ∧ g.imsi ≠ []) ∨ (type = 2 ∧ g.imei ≠ []) ∨ (type = 3 ∧ g.imeisv ≠ []) ∨ type = 4

theorem miDigits_cases (t : Nat) (l : List Nat) (ht : t < 8) (hl : ∀ d ∈ l, d < 10) :
    (∃ v, miDigits t l = some v ∧ identityDigits v = some (t, l) ∧ l ≠ []) ∨ (miDigits t l = none ∧ l = []) := by
  cases l with
  | nil => exact .inr ⟨rfl, rfl⟩
  | cons d l => exact .inl ⟨_, rfl, c91_digits t ht _ hl rfl, by simp⟩

theorem buildIdResp_cases (g : Gmme) (type : Nat)
    (hd : ∀ l ∈ [g.imsi, g.imei, g.imeisv], ∀ d ∈ l, d < 10) :
    (∃ v, buildIdResp type g.ptmsi g.imsi g.imei g.imeisv = some ([0x08, 0x16] ++ lv v) ∧ idKnown g type ∧
      idAnswer g type v) ∨
    (buildIdResp type g.ptmsi g.imsi g.imei g.imeisv = none ∧ ¬ idKnown g type) := by
  unfold buildIdResp
  by_cases h1 : type = 1
  · subst h1
    rw [if_pos rfl]
    rcases miDigits_cases 1 g.imsi (by decide) (hd _ (by simp)) with ⟨v, e, e2, e3⟩ | ⟨e, e2⟩
    · rw [e]; exact .inl ⟨v, rfl, .inl ⟨rfl, e3⟩, .inl ⟨rfl, e2⟩⟩
    · rw [e]; refine .inr ⟨rfl, ?_⟩; unfold idKnown; simp [e2]
  rw [if_neg h1]
  by_cases h4 : type = 4
  · subst h4
    rw [if_pos rfl]
    exact .inl ⟨_, rfl, .inr (.inr (.inr rfl)), .inr (.inr (.inr ⟨rfl, rfl⟩))⟩
  rw [if_neg h4]
  by_cases h2 : type = 2
  · subst h2
    rw [if_pos rfl]
    rcases miDigits_cases 2 g.imei (by decide) (hd _ (by simp)) with ⟨v, e, e2, e3⟩ | ⟨e, e2⟩
    · rw [e]; exact .inl ⟨v, rfl, .inr (.inl ⟨rfl, e3⟩), .inr (.inl ⟨rfl, e2⟩)⟩
    · rw [e]; refine .inr ⟨rfl, ?_⟩; unfold idKnown; simp [e2]
  rw [if_neg h2]
  by_cases h3 : type = 3
  · subst h3
    rw [if_pos rfl]
    rcases miDigits_cases 3 g.imeisv (by decide) (hd _ (by simp)) with ⟨v, e, e2, e3⟩ | ⟨e, e2⟩
    · rw [e]; exact .inl ⟨v, rfl, .inr (.inr (.inl ⟨rfl, e3⟩)), .inr (.inr (.inl ⟨rfl, e2⟩))⟩
    · rw [e]; refine .inr ⟨rfl, ?_⟩; unfold idKnown; simp [e2]
  rw [if_neg h3]
  refine .inr ⟨rfl, ?_⟩
  unfold idKnown
  simp [h1, h2, h3, h4]

/-- C91: IDENTITY REQUEST is answered by one message with the identity asked for if there is one, and by
nothing otherwise; it leaves the identities and the procedures alone. -/
theorem c91_identity {cfg : GmmCfg} {ok : GmmOut → Bool} {g : Gmme} {o : UInt8} {rest : Octets} {r : GmmStep}
    (hd : ∀ l ∈ [g.imsi, g.imei, g.imeisv], ∀ d ∈ l, d < 10)
    (h : gmmStep cfg ok g (.rx (0x08 :: 0x15 :: o :: rest)) = .ok r) :
    Same g r.g ∧ r.g.tlli = g.tlli ∧ r.g.ptmsi = g.ptmsi ∧
    (idKnown g (o.toNat % 16) →
      ∃ v, idAnswer g (o.toNat % 16) v ∧ r.out = [.llUnitdata g.tlli ([0x08, 0x16] ++ lv v)]) ∧
    (¬ idKnown g (o.toNat % 16) → r.out = [] ∧ r.rc ≠ none) := by
  change rxIdReq ok g (0x08 :: 0x15 :: o :: rest) = .ok r at h
  unfold rxIdReq at h
  rw [if_neg (by simp)] at h
  rw [show rd (0x08 :: 0x15 :: o :: rest) 2 = .ok o.toNat from rfl] at h
  simp only [Res.bind_ok] at h
  have hs : Same g (if o.toNat / 16 = 1 then readyStop g else g) ∧
      (if o.toNat / 16 = 1 then readyStop g else g).tlli = g.tlli ∧
      (if o.toNat / 16 = 1 then readyStop g else g).ptmsi = g.ptmsi := by
    split
    · refine ⟨readyStop_same g, ?_, ?_⟩ <;> (unfold readyStop t3312Start; split <;> (try split) <;> rfl)
    · exact ⟨Same.refl g, rfl, rfl⟩
  generalize (if o.toNat / 16 = 1 then readyStop g else g) = g1 at hs h
  obtain ⟨hs, h1, h2⟩ := hs
  rw [hs.imsi, hs.imei, hs.imeisv, h1, h2] at h
  rcases buildIdResp_cases g (o.toNat % 16) hd with ⟨v, e, k, a⟩ | ⟨e, k⟩
  · rw [e] at h
    injection h with h; subst h
    exact ⟨hs, h1, h2, fun _ => ⟨v, a, rfl⟩, fun n => absurd k n⟩
  · rw [e] at h
    injection h with h; subst h
    exact ⟨hs, h1, h2, fun n => absurd n k, fun _ => ⟨rfl, by simp⟩⟩

/-- The IMEI is asked for and told. -/
example : gmmStep defaultCfg (fun _ => true) { gmmeAlloc true 5 [2, 4, 1] 0 with imei := [1, 2, 3, 4] }
    (.rx [0x08, 0x15, 0x02]) =
    .ok ⟨{ gmmeAlloc true 5 [2, 4, 1] 0 with imei := [1, 2, 3, 4] },
      [.llUnitdata 0x80000005 [0x08, 0x16, 3, 0x12, 0x32, 0xf4]], none⟩ := by decide +kernel

end Verif.Props
