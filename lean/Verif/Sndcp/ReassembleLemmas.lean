import Verif.Sndcp.SegmentLemmas
/-!
# Lemmas about the SNDCP reassembly model
-/
namespace Verif.Sndcp
open Verif.Spec.Sndcp

/-! ## Segment bitmask -/

theorem foldl_bits_testBit (l : List Nat) : ∀ (m i : Nat),
    (l.foldl (fun m i => m ||| (1 <<< i)) m).testBit i = (m.testBit i || decide (i ∈ l)) := by
  induction l with
  | nil => simp
  | cons a l ih =>
    intro m i
    rw [List.foldl_cons, ih, Nat.testBit_or, Nat.one_shiftLeft, Nat.testBit_two_pow]
    simp only [List.mem_cons, Bool.or_assoc]
    congr 1
    by_cases h : a = i <;> by_cases h2 : i ∈ l <;> simp [h, h2, eq_comm]

theorem haveAll_iff (s : Defrag) :
    haveAll s = true ↔ ∀ i, s.segHave.testBit i = decide (i ≤ s.highestSeg) := by
  simp only [haveAll, beq_iff_eq]
  constructor
  · intro h i
    rw [← h, foldl_bits_testBit]
    simp [Nat.lt_succ_iff]
  · intro h
    apply Nat.eq_of_testBit_eq
    intro i
    rw [h, foldl_bits_testBit]
    simp [Nat.lt_succ_iff]

/-! ## Fetching fragments -/

theorem getSeg_mem : ∀ {fs : List (Nat × Octets)} {n : Nat} {d : Octets}
    {rest : List (Nat × Octets)}, getSeg fs n = some (d, rest) →
      (n, d) ∈ fs ∧ (∀ f ∈ rest, f ∈ fs) ∧ rest.length + 1 = fs.length
  | [], n, d, rest, h => by simp [getSeg] at h
  | f :: fs, n, d, rest, h => by
    rw [getSeg] at h
    split at h
    · rename_i hf
      simp only [Option.some.injEq, Prod.mk.injEq] at h
      obtain ⟨rfl, rfl⟩ := h
      subst hf
      exact ⟨List.mem_cons_self, fun g hg => List.mem_cons_of_mem _ hg, rfl⟩
    · split at h
      · rename_i d' rest' hg
        simp only [Option.some.injEq, Prod.mk.injEq] at h
        obtain ⟨rfl, rfl⟩ := h
        obtain ⟨h1, h2, h3⟩ := getSeg_mem hg
        refine ⟨List.mem_cons_of_mem _ h1, ?_, by simp [h3]⟩
        intro g hg'
        rcases List.mem_cons.mp hg' with rfl | hg'
        · exact List.mem_cons_self
        · exact List.mem_cons_of_mem _ (h2 g hg')
      · cases h

theorem getSeg_none_iff {fs : List (Nat × Octets)} {n : Nat} :
    getSeg fs n = none ↔ ∀ f ∈ fs, f.1 ≠ n := by
  induction fs with
  | nil => simp [getSeg]
  | cons f fs ih =>
    rw [getSeg]
    by_cases hf : f.1 = n
    · simp [hf]
    · simp only [hf, if_false, List.mem_cons, forall_eq_or_imp, ne_eq, not_false_eq_true, true_and]
      cases hg : getSeg fs n with
      | none => simp only [true_iff]; exact ih.mp hg
      | some x =>
        obtain ⟨d, rest⟩ := x
        simp only [reduceCtorEq, false_iff]
        intro hall
        have := ih.mpr hall
        rw [hg] at this
        cases this

theorem getSeg_other : ∀ {fs : List (Nat × Octets)} {n m : Nat} {d : Octets}
    {rest : List (Nat × Octets)}, getSeg fs n = some (d, rest) → m ≠ n →
      (getSeg rest m).map Prod.fst = (getSeg fs m).map Prod.fst
  | [], n, m, d, rest, h, _ => by simp [getSeg] at h
  | f :: fs, n, m, d, rest, h, hm => by
    rw [getSeg] at h
    split at h
    · rename_i hf
      simp only [Option.some.injEq, Prod.mk.injEq] at h
      obtain ⟨rfl, rfl⟩ := h
      have : ¬ f.1 = m := by omega
      conv => rhs; rw [getSeg]
      simp only [this, if_false]
      cases getSeg fs m <;> rfl
    · split at h
      · rename_i d' rest' hg
        simp only [Option.some.injEq, Prod.mk.injEq] at h
        obtain ⟨rfl, rfl⟩ := h
        have ih := getSeg_other hg hm
        rw [getSeg, getSeg]
        by_cases hfm : f.1 = m
        · simp [hfm]
        · simp only [hfm, if_false]
          cases h1 : getSeg rest' m <;> cases h2 : getSeg fs m <;> simp_all
      · cases h

/-- All wanted segments are there: they are put together in the wanted order. -/
theorem collect_ok {size : Nat} {d : Nat → Octets} : ∀ (ns : List Nat)
    (fs : List (Nat × Octets)) (buf : Octets), ns.Nodup →
    (∀ n ∈ ns, (getSeg fs n).map Prod.fst = some (d n)) →
    128 + (buf ++ (ns.map d).flatten).length ≤ size % 65536 →
    ∃ rest, collect size ns fs buf = .ok (some (buf ++ (ns.map d).flatten), rest) ∧
      rest.length + ns.length = fs.length
  | [], fs, buf, _, _, _ => ⟨fs, by simp [collect], by simp⟩
  | n :: ns, fs, buf, hnd, hg, hsz => by
    have h0 := hg n List.mem_cons_self
    cases hs : getSeg fs n with
    | none => rw [hs] at h0; cases h0
    | some x =>
      obtain ⟨d', rest⟩ := x
      rw [hs] at h0
      simp only [Option.map_some, Option.some.injEq] at h0
      subst h0
      have hnd' := List.nodup_cons.mp hnd
      have hg' : ∀ m ∈ ns, (getSeg rest m).map Prod.fst = some (d m) := by
        intro m hm
        rw [getSeg_other hs (by rintro rfl; exact hnd'.1 hm)]
        exact hg m (List.mem_cons_of_mem _ hm)
      have hfit : msgbFits size 128 (buf.length + (d n).length) = true := by
        simp only [msgbFits, decide_eq_true_eq]
        simp only [List.map_cons, List.flatten_cons, List.length_append] at hsz
        omega
      obtain ⟨r, hr, hl⟩ := collect_ok ns rest (buf ++ d n) hnd'.2 hg' (by
        simpa [List.append_assoc] using hsz)
      refine ⟨r, ?_, ?_⟩
      · rw [collect]
        simp only [hs, hfit, Bool.not_true, Bool.false_eq_true, if_false]
        rw [hr]
        simp [List.append_assoc]
      · have := (getSeg_mem hs).2.2
        simp only [List.length_cons]
        omega

/-- Whatever is put together consists of stored fragments with the wanted numbers, and nothing new
is stored. -/
theorem collect_some {size : Nat} : ∀ (ns : List Nat) (fs : List (Nat × Octets)) (buf : Octets)
    (out : Octets) (rest : List (Nat × Octets)),
    collect size ns fs buf = .ok (some out, rest) →
    (∀ f ∈ rest, f ∈ fs) ∧ ∃ picked : List (Nat × Octets), (∀ f ∈ picked, f ∈ fs) ∧
      picked.map Prod.fst = ns ∧ out = buf ++ (picked.map Prod.snd).flatten
  | [], fs, buf, out, rest, h => by
    simp only [collect, Res.ok.injEq, Prod.mk.injEq, Option.some.injEq] at h
    obtain ⟨rfl, rfl⟩ := h
    exact ⟨fun f hf => hf, [], by simp, rfl, by simp⟩
  | n :: ns, fs, buf, out, rest, h => by
    rw [collect] at h
    cases hs : getSeg fs n with
    | none => simp [hs] at h
    | some x =>
      obtain ⟨d, r⟩ := x
      simp only [hs] at h
      split at h
      · cases h
      · obtain ⟨h1, h2, h3⟩ := getSeg_mem hs
        obtain ⟨ha, p, hb, hc, hd⟩ := collect_some ns r (buf ++ d) out rest h
        refine ⟨fun f hf => h2 f (ha f hf), (n, d) :: p, ?_, by simp [hc], by simp [hd]⟩
        intro f hf
        rcases List.mem_cons.mp hf with rfl | hf
        · exact h1
        · exact h2 f (hb f hf)

theorem collect_none {size : Nat} : ∀ (ns : List Nat) (fs : List (Nat × Octets)) (buf : Octets)
    (rest : List (Nat × Octets)), collect size ns fs buf = .ok (none, rest) → ∀ f ∈ rest, f ∈ fs
  | [], fs, buf, rest, h => by simp [collect] at h
  | n :: ns, fs, buf, rest, h => by
    rw [collect] at h
    cases hs : getSeg fs n with
    | none =>
      simp only [hs, Res.ok.injEq, Prod.mk.injEq, true_and] at h
      subst h
      exact fun f hf => hf
    | some x =>
      obtain ⟨d, r⟩ := x
      simp only [hs] at h
      split at h
      · cases h
      · intro f hf
        exact (getSeg_mem hs).2.1 f (collect_none ns r (buf ++ d) rest h f hf)

/-! ## Reading a PDU -/

theorem toNat_ofNat {n : Nat} (h : n < 256) : (UInt8.ofNat n).toNat = n := by
  simp [UInt8.toNat_ofNat', Nat.mod_eq_of_lt h]

/-- The outcome of receiving a well-formed PDU in terms of its fields. -/
def rxSn (s : Defrag) (p : SnPdu) : Res (Defrag × RxOut) :=
  if p.first then
    if p.more then defragSeg { s with pcomp := 0, dcomp := 0 } true true p.npdu p.seg p.payload
    else if p.payload = [] then .ok ({ s with pcomp := 0, dcomp := 0 }, .error .eio)
    else .ok ({ s with pcomp := 0, dcomp := 0 }, .deliver p.payload)
  else defragSeg s false p.more p.npdu p.seg p.payload

theorem u32Sub_add {a b : Nat} (ha : a < 4294967000) (hb : b < 256) : u32Sub (a + b) b = a := by
  unfold u32Sub
  omega

attribute [local irreducible] u32Sub

/-- `defragBody` from the values of its reads. -/
theorem defragBody_of {s : Defrag} {b : Octets} {u0 u1 off : Nat} {first more : Bool}
    {data : Octets} (h1 : rd b off = .ok u0) (h2 : rd b (off + 1) = .ok u1)
    (h3 : rdN b (off + 2) (u32Sub b.length (off + 2)) = .ok data) :
    defragBody s b first more off =
      defragSeg s first more (u0 % 16 * 256 + u1) (u0 / 16) data := by
  rw [defragBody, h1, h2, h3]
  rfl

theorem defragInput_of {s : Defrag} {b : Octets} {h : Nat} (h0 : rd b 0 = .ok h) :
    defragInput s b = defragBody s b (decide (h / 64 % 2 = 1)) (decide (h / 16 % 2 = 1))
      (if decide (h / 64 % 2 = 1) then 2 else 1) := by
  rw [defragInput, h0, Res.bind_ok]

theorem defragInput_encode {p : SnPdu} (hw : p.WellFormed) (hl : p.payload.length < 4294967000)
    (s : Defrag) :
    defragInput s p.encode = defragSeg s p.first p.more p.npdu p.seg p.payload := by
  obtain ⟨h1, h2, h3⟩ := hw
  have hlen := encode_length p
  obtain ⟨fi, mo, ns, np, sg, pl⟩ := p
  simp only at h1 h2 h3 hl hlen
  have e0 : (sg * 16 + np / 256) < 256 := by omega
  have e1 : np % 256 < 256 := by omega
  have hx : (if fi then 64 else 0) + 32 + (if mo then 16 else 0) + ns < 256 := by
    split <;> split <;> omega
  have hu0 : (sg * 16 + np / 256) % 16 * 256 + np % 256 = np := by omega
  have hu1 : (sg * 16 + np / 256) / 16 = sg := by omega
  have hr0 : rd (SnPdu.encode ⟨fi, mo, ns, np, sg, pl⟩) 0 =
      .ok ((if fi then 64 else 0) + 32 + (if mo then 16 else 0) + ns) := by
    simp only [SnPdu.encode, rd, List.getElem?_cons_zero, toNat_ofNat hx]
  have hfi : decide (((if fi then 64 else 0) + 32 + (if mo then 16 else 0) + ns) / 64 % 2 = 1) = fi
    := by cases fi <;> cases mo <;> simp <;> omega
  have hmo : decide (((if fi then 64 else 0) + 32 + (if mo then 16 else 0) + ns) / 16 % 2 = 1) = mo
    := by cases fi <;> cases mo <;> simp <;> omega
  generalize (if fi then 64 else 0) + 32 + (if mo then 16 else 0) + ns = h at hr0 hfi hmo
  have hdi : defragInput s (SnPdu.encode ⟨fi, mo, ns, np, sg, pl⟩) =
      defragBody s (SnPdu.encode ⟨fi, mo, ns, np, sg, pl⟩) fi mo (if fi then 2 else 1) := by
    rw [defragInput_of hr0, hfi, hmo]
  rw [hdi]
  have := defragBody_of (s := s) (b := SnPdu.encode ⟨fi, mo, ns, np, sg, pl⟩)
    (u0 := sg * 16 + np / 256) (u1 := np % 256) (off := if fi then 2 else 1)
    (first := fi) (more := mo) (data := pl)
    (by
      have hb := toNat_ofNat e0
      unfold SnPdu.encode
      simp only
      generalize UInt8.ofNat (sg * 16 + np / 256) = u at hb
      cases fi <;> simp [rd, hb])
    (by cases fi <;> simp [SnPdu.encode, rd, toNat_ofNat e1, -UInt8.toNat_ofNat'])
    (by
      have hk : u32Sub (SnPdu.encode ⟨fi, mo, ns, np, sg, pl⟩).length ((if fi then 2 else 1) + 2)
          = pl.length := by
        have e : 3 + (if fi = true then 1 else 0) + pl.length =
            pl.length + ((if fi then 2 else 1) + 2) := by split <;> omega
        rw [hlen, e]
        exact u32Sub_add hl (by split <;> omega)
      rw [hk, rdN_of_le (by rw [hlen]; cases fi <;> simp <;> omega)]
      cases fi <;> simp [SnPdu.encode])
  rw [this, hu0, hu1]

theorem llUnitdataInd_encode {p : SnPdu} (hw : p.WellFormed)
    (hl : p.payload.length < 4294967000) (s : Defrag) :
    llUnitdataInd s p.encode = rxSn s p := by
  have hdi := defragInput_encode hw hl
  obtain ⟨h1, h2, h3⟩ := hw
  have hlen := encode_length p
  have hne : ¬ p.encode.length = 0 := by omega
  have hlt : ¬ p.encode.length < 3 := by omega
  rw [llUnitdataInd, if_neg hne, handleUnitdataInd, rxSn]
  have hb : ∀ b : Octets, b = p.encode → ∃ t, b = UInt8.ofNat ((if p.first then 64 else 0) + 32 +
      (if p.more then 16 else 0) + p.nsapi) :: t := fun b hb => ⟨_, hb⟩
  have hx : (if p.first then 64 else 0) + 32 + (if p.more then 16 else 0) + p.nsapi < 256 := by
    split <;> split <;> omega
  have hr0 : rd p.encode 0 = .ok ((if p.first then 64 else 0) + 32 + (if p.more then 16 else 0) +
      p.nsapi) := by
    simp only [SnPdu.encode, rd, List.getElem?_cons_zero, toNat_ofNat hx]
  rw [hr0]
  simp only [Res.bind_ok]
  have ht : ¬ ((if p.first then 64 else 0) + 32 + (if p.more then 16 else 0) + p.nsapi) / 32 % 2
      = 0 := by
    split <;> split <;> omega
  rw [if_neg ht, if_neg hlt]
  cases hf : p.first with
  | false =>
    have d1 : ¬ ((if false = true then 64 else 0) + 32 + (if p.more then 16 else 0) + p.nsapi) / 64
        % 2 = 1 := by
      simp only [Bool.false_eq_true, if_false]
      split <;> omega
    rw [if_neg d1]
    simp only [Bool.false_eq_true, if_false]
    have := hdi s
    rw [hf] at this
    exact this
  | true =>
    have d1 : ((if true = true then 64 else 0) + 32 + (if p.more then 16 else 0) + p.nsapi) / 64
        % 2 = 1 := by
      simp only [if_true]
      split <;> omega
    rw [if_pos d1]
    have hr1 : rd p.encode 1 = .ok 0 := by simp [SnPdu.encode, hf, rd]
    have hr2 : (rd p.encode 2).Safe := rd_safe_iff.mpr (by rw [hlen, hf]; simp; omega)
    have hr3 : (rd p.encode 3).Safe := rd_safe_iff.mpr (by rw [hlen, hf]; simp; omega)
    rw [hr1]
    simp only [Res.bind_ok, if_true]
    cases hm : p.more with
    | true =>
      have d2 : (64 + 32 + (if true = true then 16 else 0) + p.nsapi) / 16 % 2 = 1 := by
        simp only [if_true]
        omega
      rw [if_pos d2]
      simp only [if_true]
      have := hdi { s with pcomp := 0, dcomp := 0 }
      rw [hf, hm] at this
      exact this
    | false =>
      have d2 : ¬ (64 + 32 + (if false = true then 16 else 0) + p.nsapi) / 16 % 2 = 1 := by
        simp only [Bool.false_eq_true, if_false]
        omega
      rw [if_neg d2]
      simp only [Bool.false_eq_true, if_false]
      rw [rd_of_lt (by rw [hlen, hf]; simp; omega), rd_of_lt (by rw [hlen, hf]; simp; omega)]
      simp only [Res.bind_ok]
      have hdrop : p.encode.drop 4 = p.payload := by simp [SnPdu.encode, hf]
      rw [hdrop]
      have hle : p.encode.length ≤ 4 ↔ p.payload = [] := by
        rw [hlen, hf]
        simp only [if_true]
        rw [← List.length_eq_zero_iff]
        omega
      by_cases he : p.payload = []
      · rw [if_pos (hle.mpr he), if_pos he]
      · rw [if_neg (fun h => he (hle.mp h)), if_neg he]

end Verif.Sndcp
