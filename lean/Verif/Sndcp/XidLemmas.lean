import Verif.Sndcp.XidNsapi
/-!
# Lemmas about the SNDCP XID coder and decoder
-/
namespace Verif.Sndcp
open Verif.Spec.SndcpXid

/-! ## Reading behind a known position -/

theorem rd_drop {b : Octets} {pos : Nat} {x : UInt8} {r : Octets} (h : b.drop pos = x :: r) :
    rd b pos = .ok x.toNat ∧ b.drop (pos + 1) = r := by
  constructor
  · have : (b.drop pos)[0]? = some x := by rw [h]; rfl
    rw [List.getElem?_drop, Nat.add_zero] at this
    rw [rd, this]
  · rw [← List.drop_drop, h]
    rfl

theorem rd_two {b : Octets} {pos n : Nat} {r : Octets} (hn : n < 65536)
    (h : b.drop pos = two n ++ r) :
    ∃ hi lo, rd b pos = .ok hi ∧ rd b (pos + 1) = .ok lo ∧ hi * 256 + lo = n ∧
      b.drop (pos + 2) = r := by
  obtain ⟨h1, h2⟩ := rd_drop (show b.drop pos = UInt8.ofNat (n / 256) :: (UInt8.ofNat (n % 256) :: r)
    from h)
  obtain ⟨h3, h4⟩ := rd_drop h2
  refine ⟨_, _, h1, h3, ?_, h4⟩
  rw [UInt8.toNat_ofNat', UInt8.toNat_ofNat']
  omega

theorem rd_one {b : Octets} {pos n : Nat} {r : Octets} (hn : n < 256)
    (h : b.drop pos = one n ++ r) : rd b pos = .ok n ∧ b.drop (pos + 1) = r := by
  obtain ⟨h1, h2⟩ := rd_drop (show b.drop pos = UInt8.ofNat n :: r from h)
  refine ⟨?_, h2⟩
  rw [h1, UInt8.toNat_ofNat']
  congr 1
  omega

/-! ## Integer parameters -/

/-- Coding of a value with its width. -/
def valBytes : List (DecSpec × Nat) → Octets
  | [] => []
  | (s, v) :: t => (if s.wide then two v else one v) ++ valBytes t

/-- Values the decoder takes. -/
def Accepts : List Nat → List (DecSpec × Nat) → Prop
  | _, [] => True
  | acc, (s, v) :: t => s.lo ≤ v ∧ v ≤ s.hi ∧ v < (if s.wide then 65536 else 256) ∧
      s.check acc v = true ∧ Accepts (acc ++ [v]) t

theorem u32Sub_le {a b : Nat} (h : b ≤ a) (ha : a < 4294967296) : u32Sub a b = a - b := by
  unfold u32Sub
  omega

theorem decField_two {s : DecSpec} {b : Octets} {pos len v : Nat} {r : Octets}
    (hw : s.wide = true) (hv : v < 65536) (h : b.drop pos = two v ++ r) (hl : 2 ≤ len) :
    decField s b pos len = .ok (if v < s.lo ∨ v > s.hi then none else some v) := by
  obtain ⟨hi, lo, h1, h2, h3, _⟩ := rd_two hv h
  have hl' : ¬ len < 2 := by omega
  rw [decField, hw, if_pos rfl, if_neg hl', h1, Res.bind_ok, h2, Res.bind_ok, h3]

theorem decField_one {s : DecSpec} {b : Octets} {pos len v : Nat} {r : Octets}
    (hw : s.wide = false) (hv : v < 256) (h : b.drop pos = one v ++ r) (hl : 1 ≤ len) :
    decField s b pos len = .ok (if v < s.lo ∨ v > s.hi then none else some v) := by
  obtain ⟨h1, _⟩ := rd_one hv h
  have hl' : ¬ len < 1 := by omega
  rw [decField, hw, if_neg (by decide), if_neg hl', h1, Res.bind_ok]

theorem decVals_ok (b : Octets) (start len : Nat) (hlen : len < 4294967296) :
    ∀ (svs : List (DecSpec × Nat)) (cnt : Nat) (acc : List Nat) (r : Octets),
      Accepts acc svs → b.drop (start + cnt) = valBytes svs ++ r →
      cnt + (valBytes svs).length ≤ len →
      decVals b start len (svs.map Prod.fst) cnt acc =
        .ok (acc ++ svs.map Prod.snd, cnt + (valBytes svs).length)
  | [], cnt, acc, r, _, _, _ => by simp [decVals, valBytes]
  | (s, v) :: t, cnt, acc, r, ha, hd, hl => by
    obtain ⟨h1, h2, h3, h4, h5⟩ := ha
    rw [valBytes, List.length_append] at hl
    rw [valBytes, List.append_assoc] at hd
    have hu : u32Sub len cnt = len - cnt := u32Sub_le (by omega) hlen
    have hrange : ¬ (v < s.lo ∨ v > s.hi) := by omega
    rw [List.map_cons, decVals, hu]
    cases hw : s.wide with
    | true =>
      rw [hw] at hd hl h3
      simp only [if_true] at hd hl h3
      have h2l : (two v).length = 2 := rfl
      rw [decField_two hw h3 hd (by omega), if_neg hrange]
      simp only [h4, if_true]
      obtain ⟨_, _, _, _, _, hd2⟩ := rd_two h3 hd
      rw [decVals_ok b start len hlen t (cnt + 2) (acc ++ [v]) r h5 hd2 (by omega)]
      simp only [valBytes, hw, if_true, List.length_append, h2l, List.map_cons, List.append_assoc,
        List.singleton_append]
      congr 2
      omega
    | false =>
      rw [hw] at hd hl h3
      simp only [Bool.false_eq_true, if_false] at hd hl h3
      have h1l : (one v).length = 1 := rfl
      rw [decField_one hw h3 hd (by omega), if_neg hrange]
      simp only [h4, if_true, Bool.false_eq_true, if_false]
      obtain ⟨_, hd2⟩ := rd_one h3 hd
      rw [decVals_ok b start len hlen t (cnt + 1) (acc ++ [v]) r h5 hd2 (by omega)]
      simp only [valBytes, hw, Bool.false_eq_true, if_false, List.length_append, h1l, List.map_cons,
        List.append_assoc, List.singleton_append]
      congr 2
      omega

/-! ## Profiles -/

theorem flatMap_two_length (ps : List Nat) : (ps.flatMap two).length = 2 * ps.length := by
  induction ps with
  | nil => rfl
  | cons a t ih =>
    rw [List.flatMap_cons, List.length_append, ih, List.length_cons]
    have : (two a).length = 2 := rfl
    omega

/-- All profiles come back if there are sixteen, none if there are fewer. -/
theorem decProfiles_ok (b : Octets) (start len : Nat) (hlen : len < 4294967296) :
    ∀ (ps : List Nat) (n cnt : Nat) (acc : List Nat) (r : Octets),
      (∀ p ∈ ps, p ≤ 65535) → b.drop (start + cnt) = ps.flatMap two ++ r → ps.length ≤ n →
      cnt + 2 * ps.length = len →
      decProfiles profileSpec b start len n cnt acc =
        .ok (if ps.length = n then acc ++ ps else [], cnt + 2 * ps.length)
  | [], n, cnt, acc, r, _, _, _, hl => by
    cases n with
    | zero => simp [decProfiles]
    | succ n =>
      have hu : u32Sub len cnt = 0 := by
        rw [u32Sub_le (by omega) hlen]
        simp at hl
        omega
      have hf : decField profileSpec b (start + cnt) 0 = .ok none := rfl
      rw [decProfiles, hu, hf]
      have hne : ¬ (([] : List Nat).length = n + 1) := by simp
      rw [if_neg hne]
      rfl
  | p :: ps, n, cnt, acc, r, hp, hd, hn, hl => by
    cases n with
    | zero => simp at hn
    | succ n =>
      rw [List.flatMap_cons, List.append_assoc] at hd
      simp only [List.length_cons] at hn hl
      have hp1 := hp p List.mem_cons_self
      have hu : u32Sub len cnt = len - cnt := u32Sub_le (by omega) hlen
      have hp2 : p < 65536 := by omega
      have hf := decField_two (s := profileSpec) (len := len - cnt) rfl
        hp2 hd (by omega)
      have hrange : ¬ (p < profileSpec.lo ∨ p > profileSpec.hi) := by
        simp only [profileSpec]
        omega
      rw [if_neg hrange] at hf
      rw [decProfiles, hu, hf]
      obtain ⟨_, _, _, _, _, hd2⟩ := rd_two hp2 hd
      show decProfiles profileSpec b start len n (cnt + 2) (acc ++ [p]) = _
      rw [decProfiles_ok b start len hlen ps n (cnt + 2) (acc ++ [p]) r
        (fun q hq => hp q (List.mem_cons_of_mem _ hq)) hd2 (by omega) (by omega)]
      simp only [List.length_cons, Nat.add_right_cancel_iff, List.append_assoc,
        List.singleton_append]
      congr 2
      omega

/-! ## Parameter fields -/

/-- The values of an algorithm with the decoder's table. -/
def algSpecVals (a : Alg) : List (DecSpec × Nat) := (decSpecs (algKind a)).zip (algVals a)

theorem algSpecVals_fst (a : Alg) : (algSpecVals a).map Prod.fst = decSpecs (algKind a) := by
  cases a <;> rfl

theorem algSpecVals_snd (a : Alg) : (algSpecVals a).map Prod.snd = algVals a := by
  cases a <;> rfl

theorem algBytes_eq (a : Alg) : a.bytes = valBytes (algSpecVals a) ++ (algProfiles a).flatMap two := by
  cases a <;> simp [Alg.bytes, algSpecVals, valBytes, algProfiles, decSpecs, algKind, algVals]

/-- What the decoder additionally wants: V.44 dictionary sizes of at least 265. -/
def Decodable : Alg → Prop
  | .v44 _ _ c d _ _ => 265 ≤ c ∧ 265 ≤ d
  | _ => True

theorem accepts_alg {a : Alg} (h : a.Legal) (hd : Decodable a) : Accepts [] (algSpecVals a) := by
  cases a with
  | rfc1144 s =>
    simp only [Alg.Legal] at h
    simp [algSpecVals, algKind, algVals, decSpecs, Accepts]
    omega
  | rfc2507 a b c d e =>
    simp only [Alg.Legal] at h
    simp [algSpecVals, algKind, algVals, decSpecs, Accepts]
    omega
  | rohc a b ps =>
    simp only [Alg.Legal] at h
    simp [algSpecVals, algKind, algVals, decSpecs, Accepts]
    omega
  | v42bis a b c =>
    simp only [Alg.Legal] at h
    simp [algSpecVals, algKind, algVals, decSpecs, Accepts]
    omega
  | v44 a b c d e f =>
    simp only [Alg.Legal] at h
    simp only [Decodable] at hd
    simp [algSpecVals, algKind, algVals, decSpecs, Accepts]
    omega

/-- Profiles read back: those sent if there are sixteen, else none. -/
def keptProfiles (a : Alg) : List Nat :=
  if (algProfiles a).length = 16 then algProfiles a else []

theorem valBytes_length (a : Alg) : (valBytes (algSpecVals a)).length ≤ 10 := by
  cases a <;> simp [algSpecVals, algKind, algVals, decSpecs, valBytes, one, two]

theorem vals_length (a : Alg) : (algVals a).length = (decSpecs (algKind a)).length := by
  cases a <;> rfl

theorem decNsapis_ok {b : Octets} {pos len : Nat} (x : Proposal) {r : Octets}
    (h : b.drop pos = two x.nsapiMap ++ r) (hl : 2 ≤ len) :
    decNsapis b pos len = .ok (some x.nsapis) := by
  obtain ⟨_, h2, h3⟩ := nsapi_facts x
  obtain ⟨hi, lo, e1, e2, e3, _⟩ := rd_two h2 h
  have hl' : ¬ len < 2 := by omega
  rw [decNsapis, if_neg hl', e1, Res.bind_ok, e2, Res.bind_ok, e3, h3]

theorem decParams_ok {b : Octets} {pos : Nat} (x : Proposal) {r : Octets} (hleg : x.alg.Legal)
    (hdec : Decodable x.alg) (h : b.drop pos = two x.nsapiMap ++ x.alg.bytes ++ r) :
    decParams (algKind x.alg) b pos (2 + x.alg.bytes.length) =
      .ok ({ kind := algKind x.alg, nsapis := x.nsapis, vals := (algVals x.alg).map Int.ofNat,
             profiles := keptProfiles x.alg }, 2 + x.alg.bytes.length) := by
  have hprof : (algProfiles x.alg).length ≤ 16 ∧ ∀ p ∈ algProfiles x.alg, p ≤ 65535 := by
    cases ha : x.alg with
    | rohc a b ps =>
      rw [ha] at hleg
      exact ⟨hleg.2.2.1, hleg.2.2.2⟩
    | _ => simp [algProfiles]
  have hbl : x.alg.bytes.length = (valBytes (algSpecVals x.alg)).length +
      2 * (algProfiles x.alg).length := by
    rw [algBytes_eq, List.length_append, flatMap_two_length]
  have hv10 := valBytes_length x.alg
  rw [List.append_assoc] at h
  have hd2 : b.drop (pos + 2) = valBytes (algSpecVals x.alg) ++
      ((algProfiles x.alg).flatMap two ++ r) := by
    obtain ⟨_, _, _, _, _, e⟩ := rd_two (nsapi_facts x).2.1 h
    rw [e, algBytes_eq, List.append_assoc]
  have hvals := decVals_ok b pos (2 + x.alg.bytes.length) (by omega) (algSpecVals x.alg) 2 [] _
    (accepts_alg hleg hdec) hd2 (by omega)
  rw [algSpecVals_fst, algSpecVals_snd, List.nil_append] at hvals
  rw [decParams, decNsapis_ok x h (by omega), Res.bind_ok]
  simp only [hvals, Res.bind_ok]
  have hdrop : (List.replicate (decSpecs (algKind x.alg)).length (-1 : Int)).drop
      (algVals x.alg).length = [] := by
    rw [vals_length, List.drop_replicate, Nat.sub_self]
    rfl
  rw [hdrop, List.append_nil]
  by_cases hr : algKind x.alg = .rohc
  · rw [if_pos ⟨hr, vals_length x.alg⟩]
    have hd3 : b.drop (pos + (2 + (valBytes (algSpecVals x.alg)).length)) =
        (algProfiles x.alg).flatMap two ++ r := by
      rw [← Nat.add_assoc, ← List.drop_drop, hd2, List.drop_left' rfl]
    rw [decProfiles_ok b pos (2 + x.alg.bytes.length) (by omega) (algProfiles x.alg) 16 _ [] r
      hprof.2 hd3 hprof.1 (by omega), Res.bind_ok]
    simp only [keptProfiles, List.nil_append]
    congr 2
    omega
  · rw [if_neg (fun hh => hr hh.1)]
    have hnil : algProfiles x.alg = [] := by
      cases ha : x.alg with
      | rohc a b ps => rw [ha] at hr; exact absurd rfl hr
      | _ => rfl
    rw [hnil] at hbl
    simp only [keptProfiles, hnil]
    simp only [List.length_nil] at hbl
    congr 2
    omega

/-! ## Compression fields -/

theorem halves_length : ∀ l : List Nat, (halves l).length = (l.length + 1) / 2
  | [] => rfl
  | [_] => by simp [halves, one]
  | _ :: _ :: t => by
    rw [halves, List.length_cons, halves_length t, List.length_cons, List.length_cons]
    omega

theorem unpack_halves : ∀ l : List Nat, (∀ c ∈ l, c ≤ 15) → unpackNibbles l.length (halves l) = l
  | [], _ => rfl
  | [a], h => by
    have ha := h a (by simp)
    simp only [halves, one, List.length_cons, List.length_nil, unpackNibbles]
    rw [UInt8.toNat_ofNat']
    congr 1
    omega
  | a :: b :: t, h => by
    have ha := h a (by simp)
    have hb := h b (by simp)
    have ih := unpack_halves t (fun c hc => h c (by simp [hc]))
    simp only [halves, List.length_cons, unpackNibbles]
    rw [ih, UInt8.toNat_ofNat']
    congr 1
    · omega
    · congr 1
      omega

theorem rdN_drop {b : Octets} {pos : Nat} {o r : Octets} (ho : 0 < o.length)
    (h : b.drop pos = o ++ r) : rdN b pos o.length = .ok o ∧ b.drop (pos + o.length) = r := by
  constructor
  · have hl : pos + o.length ≤ b.length := by
      have := congrArg List.length h
      rw [List.length_drop, List.length_append] at this
      omega
    rw [rdN_of_le hl, h, List.take_left' rfl]
  · rw [← List.drop_drop, h, List.drop_left' rfl]

/-- Octets behind the length field of a proposal. -/
def Body (x : Proposal) : Octets := halves x.comps ++ (two x.nsapiMap ++ x.alg.bytes)

theorem alg_bytes_le {a : Alg} (h : a.Legal) : a.bytes.length ≤ 42 := by
  rw [algBytes_eq, List.length_append, flatMap_two_length]
  have h1 := valBytes_length a
  have h2 : (algProfiles a).length ≤ 16 := by
    cases a with
    | rohc a b ps => exact h.2.2.1
    | _ => simp [algProfiles]
  omega

theorem compCount_le (a : Alg) : a.compCount ≤ 5 := by
  cases a <;> simp [Alg.compCount]

theorem compCount_pos (a : Alg) : 1 ≤ a.compCount := by
  cases a <;> simp [Alg.compCount]

theorem number_le (a : Alg) : a.number ≤ 2 := by
  cases a <;> simp [Alg.number]

theorem body_length (x : Proposal) (hx : x.Legal) :
    (Body x).length = (x.comps.length + 1) / 2 + (2 + x.alg.bytes.length) ∧
      (Body x).length < 256 := by
  have h1 : (Body x).length = (x.comps.length + 1) / 2 + (2 + x.alg.bytes.length) := by
    rw [Body, List.length_append, List.length_append, halves_length]
    rfl
  refine ⟨h1, ?_⟩
  have := alg_bytes_le hx.2.2.2
  have := compCount_le x.alg
  have := hx.2.1
  omega

theorem bytes_eq (x : Proposal) : x.bytes = UInt8.ofNat (128 + x.entity) ::
    UInt8.ofNat x.alg.number :: UInt8.ofNat (Body x).length :: Body x := rfl

theorem bytes_length (x : Proposal) : x.bytes.length = 3 + (Body x).length := by
  rw [bytes_eq, List.length_cons, List.length_cons, List.length_cons]
  omega

theorem decodeCompField_ok {b : Octets} {pos avail : Nat} (lt : Option (List AlgoEntry))
    (x : Proposal) {r : Octets} (hx : x.Legal) (hdec : Decodable x.alg)
    (h : b.drop pos = x.bytes ++ r) (hav : 1 ≤ avail) :
    decodeCompField b pos avail lt (algCls x.alg) =
      .ok (toFieldP x (keptProfiles x.alg), x.bytes.length) ∧
    b.drop (pos + x.bytes.length) = r := by
  refine ⟨?_, (rdN_drop (by rw [bytes_length]; omega) h).2⟩
  rw [bytes_eq] at h
  obtain ⟨r0, d0⟩ := rd_drop h
  obtain ⟨r1, d1⟩ := rd_drop d0
  obtain ⟨r2, d2⟩ := rd_drop d1
  obtain ⟨hbl, hb256⟩ := body_length x hx
  obtain ⟨he, hcl, hc15, hal⟩ := hx
  have hnum := number_le x.alg
  rw [UInt8.toNat_ofNat'] at r0 r1 r2
  have e0 : (128 + x.entity) % 2 ^ 8 = 128 + x.entity := by omega
  have e1 : x.alg.number % 2 ^ 8 = x.alg.number := by omega
  have e2 : (Body x).length % 2 ^ 8 = (Body x).length := by omega
  rw [e0] at r0
  rw [e1] at r1
  rw [e2] at r2
  have hav' : ¬ avail < 1 := by omega
  have f1 : (128 + x.entity) / 128 = 1 := by omega
  have f2 : (128 + x.entity) % 32 = x.entity ∨ x.entity > 31 := by omega
  have f3 : (128 + x.entity) % 32 = x.entity := by omega
  have f4 : x.alg.number % 32 = x.alg.number := by omega
  rw [decodeCompField, if_neg hav', r0, Res.bind_ok, if_pos f1, r1, Res.bind_ok, f3, f4]
  rw [decFieldBody]
  rw [show pos + 2 = pos + 1 + 1 from rfl, r2, Res.bind_ok]
  have d2' : b.drop (pos + 1 + 1 + 1) =
      halves x.comps ++ ((two x.nsapiMap ++ x.alg.bytes) ++ r) := by
    rw [d2, ← List.append_assoc]
    rfl
  have hcp := compCount_pos x.alg
  obtain ⟨q1, q2⟩ := rdN_drop (by rw [halves_length]; omega) d2'
  rw [halves_length, hcl] at q1
  rw [halves_length, hcl] at q2
  have hcv : decCompValues b (pos + 1 + 1 + 1) true (algCls x.alg) x.alg.number =
      .ok (x.comps, (x.alg.compCount + 1) / 2) := by
    rw [decCompValues, if_pos rfl, kindOf_alg]
    simp only [nComp_alg]
    rw [q1, Res.bind_ok, ← hcl, unpack_halves x.comps hc15]
  rw [hcv, Res.bind_ok]
  simp only
  have hu : u32Sub (Body x).length ((x.alg.compCount + 1) / 2) = 2 + x.alg.bytes.length := by
    rw [u32Sub_le (by omega) (by omega)]
    omega
  rw [hu, decAlgoParams, kindOf_alg]
  simp only
  rw [decParams_ok x hal hdec (r := r) q2, Res.bind_ok]
  simp only [Res.bind_ok]
  rw [bytes_length]
  have : 2 + 1 + (x.alg.compCount + 1) / 2 + (2 + x.alg.bytes.length) = 3 + (Body x).length := by
    omega
  rw [this]
  rfl

theorem fieldBytes_cons (x : Proposal) (xs : List Proposal) :
    fieldBytes (x :: xs) = x.bytes ++ fieldBytes xs := rfl

/-! ## Lists of coded fields

A coded field is its octets together with the field they stand for. -/

/-- The octets of some coded fields. -/
def itemBytes (its : List (Octets × CompField)) : Octets := its.flatMap Prod.fst

/-- The list the decoder builds of them. -/
def itemsBack (its : List (Octets × CompField)) : List CompField := (its.map Prod.snd).reverse

theorem itemBytes_cons (i : Octets × CompField) (its : List (Octets × CompField)) :
    itemBytes (i :: its) = i.1 ++ itemBytes its := rfl

/-- The decoder turns the octets into the field, wherever they are. -/
structure Decodes (lt : Option (List AlgoEntry)) (c : CClass) (i : Octets × CompField) : Prop where
  len : 4 ≤ i.1.length
  dec : ∀ (b : Octets) (pos avail : Nat) (r : Octets), b.drop pos = i.1 ++ r → 1 ≤ avail →
    decodeCompField b pos avail lt c = .ok (i.2, i.1.length)

theorem drop_item {b : Octets} {pos : Nat} {o r : Octets} (h : b.drop pos = o ++ r) :
    b.drop (pos + o.length) = r := by
  rw [← List.drop_drop, h, List.drop_left' rfl]

theorem decodeBlock_ok (b : Octets) (pos tagLen : Nat) (lt : Option (List AlgoEntry)) (c : CClass) :
    ∀ (its : List (Octets × CompField)) (left cnt : Nat) (acc : List CompField) (r : Octets),
      its ≠ [] → (∀ i ∈ its, Decodes lt c i) →
      b.drop (pos + cnt) = itemBytes its ++ r → tagLen = cnt + (itemBytes its).length →
      its.length ≤ left →
      decodeBlock b pos tagLen lt c left cnt acc = .ok (itemsBack its ++ acc)
  | [], _, _, _, _, h, _, _, _, _ => absurd rfl h
  | _ :: _, 0, _, _, _, _, _, _, _, h => by simp at h
  | i :: its, left + 1, cnt, acc, r, _, hall, hd, ht, hl => by
    obtain ⟨hlen, hdec⟩ := hall i List.mem_cons_self
    rw [itemBytes_cons, List.append_assoc] at hd
    rw [itemBytes_cons, List.length_append] at ht
    have e1 := hdec b (pos + cnt) (tagLen - cnt) _ hd (by omega)
    have e2 := drop_item hd
    rw [decodeBlock, e1]
    simp only
    cases its with
    | nil =>
      have : ¬ tagLen > cnt + i.1.length := by
        have : (itemBytes []).length = 0 := rfl
        omega
      rw [if_neg this]
      rfl
    | cons y ys =>
      have hy : 0 < (itemBytes (y :: ys)).length := by
        rw [itemBytes_cons, List.length_append]
        have := (hall y (by simp)).len
        omega
      rw [if_pos (by omega)]
      rw [decodeBlock_ok b pos tagLen lt c (y :: ys) left (cnt + i.1.length) _ r (by simp)
        (fun z hz => hall z (List.mem_cons_of_mem _ hz))
        (by rw [← Nat.add_assoc]; exact e2) (by omega)
        (by simp only [List.length_cons] at hl ⊢; omega)]
      simp [itemsBack]

theorem itemBytes_count {lt : Option (List AlgoEntry)} {c : CClass}
    (its : List (Octets × CompField)) (h : ∀ i ∈ its, Decodes lt c i) :
    4 * its.length ≤ (itemBytes its).length := by
  induction its with
  | nil => simp
  | cons i its ih =>
    rw [itemBytes_cons, List.length_append, List.length_cons]
    have := (h i List.mem_cons_self).len
    have := ih (fun j hj => h j (List.mem_cons_of_mem _ hj))
    omega

/-! ## XID blocks, decoding -/

theorem tlv_step {b : Octets} {pos t : Nat} {v r : Octets} (ht : t ≤ 2) (hv : v.length ≤ 255)
    (hne : v ≠ []) (h : b.drop pos = parameter t v ++ r) :
    tlvParseOne b pos = .ok (t, v.length, pos + 2) ∧ b.drop (pos + 2) = v ++ r ∧
      b.length = pos + 2 + v.length + r.length := by
  rw [parameter, if_neg hne] at h
  obtain ⟨r0, d0⟩ := rd_drop h
  obtain ⟨r1, d1⟩ := rd_drop d0
  have hl : b.length = pos + 2 + v.length + r.length := by
    have hp : pos < b.length := by
      rcases Nat.lt_or_ge pos b.length with hh | hh
      · exact hh
      · rw [List.drop_eq_nil_of_le hh] at h
        cases h
    have := congrArg List.length h
    rw [List.length_drop] at this
    simp only [List.cons_append, List.length_cons, List.length_append] at this
    omega
  refine ⟨?_, d1, hl⟩
  rw [UInt8.toNat_ofNat'] at r0 r1
  have e0 : t % 2 ^ 8 = t := by omega
  have e1 : v.length % 2 ^ 8 = v.length := by omega
  rw [e0] at r0
  rw [e1] at r1
  rw [tlvParseOne, if_neg (by omega), r0, Res.bind_ok, r1, Res.bind_ok, if_neg (by omega),
    if_neg (by omega)]

/-- Coded fields of one class that fit into one parameter. -/
structure OneClass (lt : Option (List AlgoEntry)) (c : CClass) (its : List (Octets × CompField)) :
    Prop where
  ok : ∀ i ∈ its, Decodes lt c i
  fits : (itemBytes its).length ≤ 255

theorem itemBytes_long {lt : Option (List AlgoEntry)} {c : CClass}
    {its : List (Octets × CompField)} (h : OneClass lt c its) (hne : its ≠ []) :
    4 ≤ (itemBytes its).length := by
  cases its with
  | nil => exact absurd rfl hne
  | cons i t =>
    have := (h.ok i List.mem_cons_self).len
    rw [itemBytes_cons, List.length_append]
    omega

theorem itemBytes_ne {lt : Option (List AlgoEntry)} {c : CClass}
    {its : List (Octets × CompField)} (h : OneClass lt c its) (hne : its ≠ []) :
    itemBytes its ≠ [] := by
  intro h0
  have := itemBytes_long h hne
  rw [h0] at this
  simp at this

theorem tlvFields_ok {b : Octets} {lt : Option (List AlgoEntry)} {acc : List CompField} {v : Nat}
    {c : CClass} {its : List (Octets × CompField)} {r : Octets} (h : OneClass lt c its)
    (hne : its ≠ []) (hd : b.drop v = itemBytes its ++ r) :
    tlvFields b lt acc c.tag (itemBytes its).length v = .ok (itemsBack its ++ acc) := by
  have hcount := itemBytes_count its h.ok
  have hf := h.fits
  have := decodeBlock_ok b v (itemBytes its).length lt c its 65 0 acc r hne h.ok
    (by rw [Nat.add_zero]; exact hd) (by omega) (by omega)
  cases c
  · rw [tlvFields, if_pos (by rfl), this]
  · rw [tlvFields, if_neg (by decide), if_pos (by rfl), this]

theorem tag_le (c : CClass) : c.tag ≤ 2 ∧ c.tag ≠ 0 := by
  cases c <;> decide

theorem decodeXid_one {b : Octets} {w : Bool} {lt : Option (List AlgoEntry)} {left pos : Nat}
    {ver : Int} {acc : List CompField} {c : CClass} {its : List (Octets × CompField)} {r : Octets}
    (h : OneClass lt c its) (hne : its ≠ [])
    (hd : b.drop pos = parameter c.tag (itemBytes its) ++ r) :
    decodeXid b w lt (left + 1) pos ver acc =
      (if r.length ≤ 2 then .ok (ver, itemsBack its ++ acc)
       else decodeXid b w lt left (pos + 2 + (itemBytes its).length) ver (itemsBack its ++ acc)) ∧
    b.drop (pos + 2 + (itemBytes its).length) = r := by
  obtain ⟨e1, e2, e3⟩ := tlv_step (tag_le c).1 h.fits (itemBytes_ne h hne) hd
  constructor
  · rw [decodeXid, e1]
    simp only
    rw [tlvVersion, if_neg (fun hh => (tag_le c).2 hh.2)]
    simp only
    rw [tlvFields_ok h hne e2]
    simp only
    have : b.length - (pos + 2 + (itemBytes its).length) = r.length := by omega
    rw [this]
  · rw [← List.drop_drop, e2, List.drop_left' rfl]

theorem decodeXid_version {b : Octets} {w : Bool} {lt : Option (List AlgoEntry)} {left pos n : Nat}
    {ver : Int} {acc : List CompField} {r : Octets} (hn : n ≤ 255)
    (hd : b.drop pos = parameter 0 (one n) ++ r) :
    decodeXid b w lt (left + 1) pos ver acc =
      (if r.length ≤ 2 then .ok (if w then Int.ofNat n else ver, acc)
       else decodeXid b w lt left (pos + 2 + 1) (if w then Int.ofNat n else ver) acc) ∧
    b.drop (pos + 2 + 1) = r := by
  have hl : (one n).length = 1 := rfl
  obtain ⟨e1, e2, e3⟩ := tlv_step (t := 0) (by omega) (by rw [hl]; omega)
    (by simp [one]) hd
  obtain ⟨e4, e5⟩ := rd_one (by omega) e2
  rw [hl] at e1 e3
  refine ⟨?_, e5⟩
  have hv : tlvVersion b w ver 0 (pos + 2) = .ok (if w then Int.ofNat n else ver) := by
    cases w
    · rfl
    · rw [tlvVersion, if_pos ⟨rfl, rfl⟩, e4, Res.bind_ok]
      rfl
  rw [decodeXid, e1]
  simp only
  rw [hv]
  simp only
  rw [tlvFields, if_neg (by omega), if_neg (by omega)]
  simp only
  have : b.length - (pos + 2 + 1) = r.length := by omega
  rw [this]

theorem parameter_length {t : Nat} {v : Octets} (h : v ≠ []) :
    (parameter t v).length = v.length + 2 := by
  rw [parameter, if_neg h]
  rfl

theorem parameter_items_long {lt : Option (List AlgoEntry)} {c : CClass} {t : Nat}
    {its : List (Octets × CompField)} (h : OneClass lt c its) (hne : its ≠ []) :
    2 < (parameter t (itemBytes its)).length := by
  rw [parameter_length (itemBytes_ne h hne)]
  have := itemBytes_long h hne
  omega

theorem parameter_nil (t : Nat) : parameter t (itemBytes []) = [] := rfl

/-- Both kinds of fields. -/
theorem decodeXid_fields {b : Octets} {w : Bool} {lt : Option (List AlgoEntry)} {left pos : Nat}
    {ver : Int} {acc : List CompField} {ds ps : List (Octets × CompField)}
    (hds : OneClass lt .data ds) (hps : OneClass lt .proto ps) (hne : ds ≠ [] ∨ ps ≠ [])
    (hd : b.drop pos = parameter 1 (itemBytes ds) ++ parameter 2 (itemBytes ps)) :
    decodeXid b w lt (left + 2) pos ver acc = .ok (ver, itemsBack ps ++ (itemsBack ds ++ acc)) := by
  by_cases hp : ps = []
  · subst hp
    have hdn : ds ≠ [] := by
      rcases hne with h | h
      · exact h
      · exact absurd rfl h
    obtain ⟨e1, _⟩ := decodeXid_one (c := .data) (w := w) (lt := lt) (left := left + 1) (ver := ver)
      (acc := acc) hds hdn hd
    rw [e1, parameter_nil, if_pos (by decide)]
    rfl
  · by_cases hdn : ds = []
    · subst hdn
      rw [parameter_nil, List.nil_append, ← List.append_nil (parameter _ _)] at hd
      obtain ⟨e1, _⟩ := decodeXid_one (c := .proto) (w := w) (lt := lt) (left := left + 1)
        (ver := ver) (acc := acc) hps hp hd
      rw [e1, if_pos (by decide)]
      rfl
    · obtain ⟨e1, e2⟩ := decodeXid_one (c := .data) (w := w) (lt := lt) (left := left + 1)
        (ver := ver) (acc := acc) hds hdn hd
      have hlong := parameter_items_long (t := 2) hps hp
      rw [e1, if_neg (by omega)]
      rw [← List.append_nil (parameter _ _)] at e2
      obtain ⟨e3, _⟩ := decodeXid_one (c := .proto) (w := w) (lt := lt) (left := left)
        (ver := ver) (acc := itemsBack ds ++ acc) hps hp e2
      rw [e3, if_pos (by decide)]

/-! ## XID blocks, coding -/

theorem be16_eq (n : Nat) : be16 n = two n := rfl

theorem encVals_alg {a : Alg} (h : a.Legal) :
    encVals (encSpecs (algKind a)) ((algVals a).map Int.ofNat) =
      .ok (valBytes (algSpecVals a)) := by
  cases a with
  | rfc1144 s =>
    simp only [Alg.Legal] at h
    simp only [algKind, algVals, encSpecs, List.map, encVals]
    rw [if_pos (by constructor <;> simp <;> omega)]
    rfl
  | rfc2507 a b c d e =>
    simp only [Alg.Legal] at h
    simp only [algKind, algVals, encSpecs, List.map, encVals]
    rw [if_pos (by constructor <;> simp <;> omega), if_pos (by constructor <;> simp <;> omega),
      if_pos (by constructor <;> simp <;> omega), if_pos (by constructor <;> simp <;> omega),
      if_pos (by constructor <;> simp <;> omega)]
    rfl
  | rohc a b ps =>
    simp only [Alg.Legal] at h
    simp only [algKind, algVals, encSpecs, List.map, encVals]
    rw [if_pos (by constructor <;> simp <;> omega), if_pos (by constructor <;> simp <;> omega)]
    rfl
  | v42bis a b c =>
    simp only [Alg.Legal] at h
    simp only [algKind, algVals, encSpecs, List.map, encVals]
    rw [if_pos (by constructor <;> simp <;> omega), if_pos (by constructor <;> simp <;> omega),
      if_pos (by constructor <;> simp <;> omega)]
    rfl
  | v44 a b c d e f =>
    simp only [Alg.Legal] at h
    simp only [algKind, algVals, encSpecs, List.map, encVals]
    rw [if_pos (by constructor <;> simp <;> omega), if_pos (by constructor <;> simp <;> omega),
      if_pos (by constructor <;> simp <;> omega), if_pos (by constructor <;> simp <;> omega),
      if_pos (by constructor <;> simp <;> omega), if_pos (by constructor <;> simp <;> omega)]
    rfl

theorem v44_alg {a : Alg} (h : a.Legal) :
    ¬ (algKind a = .v44 ∧ v44Ok ((algVals a).map Int.ofNat) = false) := by
  cases a with
  | v44 a b c d e f =>
    simp only [Alg.Legal] at h
    simp only [algVals, List.map, v44Ok, algKind, true_and, Bool.not_eq_false, Bool.and_eq_true,
      Bool.or_eq_true, decide_eq_true_eq]
    refine ⟨⟨?_, ?_⟩, ?_⟩
    · rcases h.1 with h | h
      · exact .inl (by rw [h]; rfl)
      · exact .inr (by rw [h]; rfl)
    · simp only [Int.ofNat_eq_natCast]
      omega
    · simp only [Int.ofNat_eq_natCast]
      omega
  | _ => simp [algKind]

theorem encParams_ok (x : Proposal) (h : x.alg.Legal) :
    encParams { kind := algKind x.alg, nsapis := x.nsapis, vals := (algVals x.alg).map Int.ofNat,
                profiles := algProfiles x.alg } = .ok (two x.nsapiMap ++ x.alg.bytes) := by
  rw [encParams]
  simp only
  rw [(nsapi_facts x).1, Res.bind_ok, encVals_alg h, Res.bind_ok, if_neg (v44_alg h), algBytes_eq]
  cases ha : x.alg with
  | rohc a b ps =>
    rw [ha] at h
    have : ¬ ps.length > 16 := by
      have := h.2.2.1
      omega
    rw [if_pos (show algKind (.rohc a b ps) = .rohc from rfl),
      if_neg (show ¬ (algProfiles (.rohc a b ps)).length > 16 from this), List.append_assoc]
    rfl
  | _ => simp [algKind, algProfiles]

theorem packNibbles_halves : ∀ l : List Nat, (∀ c ∈ l, c ≤ 15) → packNibbles l = halves l
  | [], _ => rfl
  | [a], h => by
    have ha := h a (by simp)
    rw [packNibbles, halves, one, Nat.mod_eq_of_lt (by omega)]
  | a :: b :: t, h => by
    have ha := h a (by simp)
    have hb := h b (by simp)
    rw [packNibbles, halves, packNibbles_halves t (fun c hc => h c (by simp [hc])),
      Nat.mod_eq_of_lt (by omega), Nat.mod_eq_of_lt (by omega)]

theorem encodeCompField_ok (x : Proposal) (hx : x.Legal) {room : Nat}
    (hr : x.bytes.length ≤ room) : encodeCompField room (toField x) = .ok x.bytes := by
  obtain ⟨hbl, hb256⟩ := body_length x hx
  have hb := bytes_length x
  obtain ⟨he, hcl, hc15, hal⟩ := hx
  have hnum := number_le x.alg
  have hcc := compCount_le x.alg
  have hlen : (two x.nsapiMap ++ x.alg.bytes).length + (x.comps.length + 1) / 2 =
      (Body x).length := by
    rw [List.length_append, hbl]
    have : (two x.nsapiMap).length = 2 := rfl
    omega
  have hany : ¬ (x.comps.any (· > 15) = true) := by
    rw [List.any_eq_true]
    rintro ⟨c, hc, h⟩
    have := hc15 c hc
    simp only [gt_iff_lt, decide_eq_true_eq] at h
    omega
  rw [encodeCompField, toField]
  simp only
  rw [encParams_ok x hal, Res.bind_ok]
  simp only [if_true, hlen]
  have hm : (Body x).length % 256 = (Body x).length := by omega
  rw [if_neg (by
    rintro (h | h | h | h | h)
    · omega
    · omega
    · omega
    · omega
    · exact hany h.2), hm, packNibbles_halves x.comps hc15]
  rfl

theorem cls_toField (x : Proposal) : (toField x).cls = some (algCls x.alg) := by
  rw [← cls_alg]
  rfl

/-- The coder turns the field into the octets, if there is room. -/
def Encodes (i : Octets × CompField) : Prop :=
  ∀ room, i.1.length ≤ room → encodeCompField room i.2 = .ok i.1

/-- The coded fields of a class. -/
def ofClass (c : CClass) (its : List (Octets × CompField)) : List (Octets × CompField) :=
  its.filter (fun i => i.2.cls = some c)

theorem packFields_ok (room : Nat) (c : CClass) : ∀ (its : List (Octets × CompField)) (acc : Octets),
    (∀ i ∈ its, Encodes i) →
    acc.length + (itemBytes (ofClass c its)).length ≤ room →
    packFields room c (its.map Prod.snd) acc = .ok (acc ++ itemBytes (ofClass c its))
  | [], acc, _, _ => by simp [packFields, itemBytes, ofClass]
  | i :: its, acc, hall, hr => by
    have hi := hall i List.mem_cons_self
    have his := fun y hy => hall y (List.mem_cons_of_mem i hy)
    rw [List.map_cons, packFields]
    by_cases hc : i.2.cls = some c
    · have hf : ofClass c (i :: its) = i :: ofClass c its :=
        List.filter_cons_of_pos (by simpa using hc)
      rw [if_pos hc]
      rw [hf, itemBytes_cons, List.length_append] at hr
      rw [hi _ (by omega)]
      simp only
      rw [packFields_ok room c its (acc ++ i.1) his (by rw [List.length_append]; omega), hf,
        itemBytes_cons, List.append_assoc]
    · have hf : ofClass c (i :: its) = ofClass c its :=
        List.filter_cons_of_neg (by simpa using hc)
      rw [if_neg hc]
      rw [hf] at hr
      rw [packFields_ok room c its acc his hr, hf]

theorem compileClass_ok (c : CClass) (its : List (Octets × CompField))
    (hall : ∀ i ∈ its, Encodes i) (hr : (itemBytes (ofClass c its)).length ≤ 255) :
    compileClass c (itemsBack its) =
      .ok (parameter c.tag (itemBytes (ofClass c its)),
        (parameter c.tag (itemBytes (ofClass c its))).length) := by
  rw [compileClass, itemsBack, List.reverse_reverse,
    packFields_ok 512 c its [] hall (by rw [List.length_nil]; omega), List.nil_append]
  generalize itemBytes (ofClass c its) = o at hr ⊢
  cases o with
  | nil => rfl
  | cons a t =>
    simp only
    have hm : (a :: t).length % 256 = (a :: t).length := by omega
    rw [parameter, if_neg (by simp), tlvPut, hm, List.take_length]
    rfl

/-- Coding of a whole block. -/
theorem compileXid_ok (room : Nat) (its : List (Octets × CompField)) (v : Nat) (hv : v ≤ 255)
    (hne : its ≠ []) (hall : ∀ i ∈ its, Encodes i)
    (hd : (itemBytes (ofClass .data its)).length ≤ 255)
    (hp : (itemBytes (ofClass .proto its)).length ≤ 255)
    (hroom : (parameter 0 (one v) ++ parameter 1 (itemBytes (ofClass .data its)) ++
      parameter 2 (itemBytes (ofClass .proto its))).length ≤ room) :
    compileXid room (itemsBack its) (Int.ofNat v) =
      .ok (parameter 0 (one v) ++ parameter 1 (itemBytes (ofClass .data its)) ++
        parameter 2 (itemBytes (ofClass .proto its)),
        (parameter 0 (one v) ++ parameter 1 (itemBytes (ofClass .data its)) ++
        parameter 2 (itemBytes (ofClass .proto its))).length) := by
  have h0 : (0 : Int) ≤ Int.ofNat v := Int.natCast_nonneg v
  have h1 : (Int.ofNat v).toNat = v := rfl
  have hpar : tlvPut 0 [UInt8.ofNat v] = parameter 0 (one v) := rfl
  have e1 : compileClass .data (itemsBack its) =
      .ok (parameter 1 (itemBytes (ofClass .data its)),
        (parameter 1 (itemBytes (ofClass .data its))).length) :=
    compileClass_ok .data its hall hd
  have e2 : compileClass .proto (itemsBack its) =
      .ok (parameter 2 (itemBytes (ofClass .proto its)),
        (parameter 2 (itemBytes (ofClass .proto its))).length) :=
    compileClass_ok .proto its hall hp
  have l3 : (parameter 0 (one v)).length = 3 := rfl
  have hne' : itemsBack its ≠ [] := by simpa [itemsBack] using hne
  have h3 : 3 ≤ room := by
    rw [List.length_append, List.length_append] at hroom
    omega
  rw [compileXid, if_neg (by omega)]
  simp only [if_pos h0, h1, Nat.mod_eq_of_lt (show v < 256 by omega), hpar]
  rw [if_neg hne', e1, Res.bind_ok]
  simp only
  rw [e2, Res.bind_ok]
  simp only
  rw [if_neg (by omega)]
  congr 2
  rw [List.length_append, List.length_append]

/-! ## Proposals as coded fields -/

/-- A proposal as it is sent, and as it is read back. -/
def sentItem (x : Proposal) : Octets × CompField := (x.bytes, toField x)
def readItem (x : Proposal) : Octets × CompField := (x.bytes, toFieldP x (keptProfiles x.alg))

/-- The fields read back. -/
def readBack (xs : List Proposal) : List CompField :=
  (xs.map (fun x => toFieldP x (keptProfiles x.alg))).reverse

theorem sentItem_encodes (x : Proposal) (hx : x.Legal) : Encodes (sentItem x) :=
  fun _ h => encodeCompField_ok x hx h

theorem readItem_decodes (lt : Option (List AlgoEntry)) (x : Proposal) (hx : x.Legal)
    (hdec : Decodable x.alg) : Decodes lt (algCls x.alg) (readItem x) where
  len := by
    have := body_length x hx
    show 4 ≤ x.bytes.length
    rw [bytes_length]
    omega
  dec := fun _ _ _ _ h hav => (decodeCompField_ok lt x hx hdec h hav).1

theorem itemBytes_sent (xs : List Proposal) : itemBytes (xs.map sentItem) = fieldBytes xs := by
  rw [itemBytes, List.flatMap_map]
  rfl

theorem itemBytes_read (xs : List Proposal) : itemBytes (xs.map readItem) = fieldBytes xs := by
  rw [itemBytes, List.flatMap_map]
  rfl

theorem itemsBack_read (xs : List Proposal) : itemsBack (xs.map readItem) = readBack xs := by
  rw [itemsBack, readBack, List.map_map]
  rfl

theorem ofClass_sent (c : CClass) (xs : List Proposal) :
    ofClass c (xs.map sentItem) = (xs.filter (fun x => algCls x.alg = c)).map sentItem := by
  rw [ofClass, List.filter_map]
  congr 1
  apply List.filter_congr
  intro x _
  show decide ((toField x).cls = some c) = _
  rw [cls_toField]
  simp

/-! ## Whole blocks -/

/-- Reading a block of a version number and coded fields of both classes. -/
theorem decodeXid_block {w : Bool} {lt : Option (List AlgoEntry)} {version : Option Nat}
    {ds ps : List (Octets × CompField)} (hds : OneClass lt .data ds) (hps : OneClass lt .proto ps)
    (hv : ∀ v, version = some v → v ≤ 255) (hsome : version ≠ none ∨ ds ≠ [] ∨ ps ≠ [])
    {b : Octets}
    (hb : b = versionBytes version ++ parameter 1 (itemBytes ds) ++ parameter 2 (itemBytes ps)) :
    b ≠ [] ∧ decodeXid b w lt 3 0 (-1) [] =
      .ok ((match w, version with | true, some v => Int.ofNat v | _, _ => -1),
        itemsBack ps ++ itemsBack ds) := by
  have hlong1 := fun hh => parameter_items_long (t := 1) hds hh
  have hlong2 := fun hh => parameter_items_long (t := 2) hps hh
  have hfields : ∀ (pos left : Nat) (ver : Int), ds ≠ [] ∨ ps ≠ [] →
      b.drop pos = parameter 1 (itemBytes ds) ++ parameter 2 (itemBytes ps) →
      decodeXid b w lt (left + 2) pos ver [] = .ok (ver, itemsBack ps ++ itemsBack ds) := by
    intro pos left ver hx hb
    have := decodeXid_fields (w := w) (left := left) (ver := ver) (acc := []) hds hps hx hb
    rwa [List.append_nil] at this
  cases version with
  | none =>
    have hx : ds ≠ [] ∨ ps ≠ [] := by
      rcases hsome with h | h
      · exact absurd rfl h
      · exact h
    have hb' : b = parameter 1 (itemBytes ds) ++ parameter 2 (itemBytes ps) := hb
    constructor
    · rw [hb']
      intro he
      obtain ⟨h1, h2⟩ := List.append_eq_nil_iff.mp he
      rcases hx with hh | hh
      · have := hlong1 hh
        rw [h1] at this
        simp at this
      · have := hlong2 hh
        rw [h2] at this
        simp at this
    · rw [hfields 0 1 (-1) hx (by rw [List.drop_zero, hb'])]
      cases w <;> rfl
  | some v =>
    have hb' : b = parameter 0 (one v) ++
        (parameter 1 (itemBytes ds) ++ parameter 2 (itemBytes ps)) := by
      rw [hb]
      exact List.append_assoc _ _ _
    constructor
    · rw [hb', parameter, if_neg (by simp [one])]
      simp
    · obtain ⟨e1, e2⟩ := decodeXid_version (b := b) (w := w) (lt := lt) (left := 2)
        (pos := 0) (ver := -1) (acc := []) (hv v rfl) (by rw [List.drop_zero]; exact hb')
      rw [e1]
      by_cases hx : ds ≠ [] ∨ ps ≠ []
      · have hlong : ¬ (parameter 1 (itemBytes ds) ++ parameter 2 (itemBytes ps)).length ≤ 2 := by
          rw [List.length_append]
          rcases hx with hh | hh
          · have := hlong1 hh
            omega
          · have := hlong2 hh
            omega
        rw [if_neg hlong, hfields 3 0 _ hx e2]
        cases w <;> rfl
      · have h1 : ds = [] := by
          by_cases h : ds = []
          · exact h
          · exact absurd (.inl h) hx
        have h2 : ps = [] := by
          by_cases h : ps = []
          · exact h
          · exact absurd (.inr h) hx
        subst h1
        subst h2
        rw [if_pos (by decide)]
        cases w <;> rfl

end Verif.Sndcp
