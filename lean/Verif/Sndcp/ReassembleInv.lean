import Verif.Sndcp.ReassembleLemmas
/-!
# Invariants of the SNDCP reassembly model
-/
namespace Verif.Sndcp
open Verif.Spec.Sndcp

/-- `rxRun` on the fields of well-formed PDUs. -/
def snRun (s : Defrag) : List SnPdu → Res (Defrag × List Octets)
  | [] => .ok (s, [])
  | p :: ps =>
    match rxSn s p with
    | .ok (s1, o) =>
      match snRun s1 ps with
      | .ok (s2, ds) => .ok (s2, match o with | .deliver d => d :: ds | _ => ds)
      | r => r
    | .err e => .err e
    | .ub f => .ub f

theorem rxRun_encode : ∀ (ps : List SnPdu) (s : Defrag),
    (∀ p ∈ ps, p.WellFormed ∧ p.payload.length < 4294967000) →
    rxRun s (ps.map SnPdu.encode) = snRun s ps
  | [], _, _ => rfl
  | p :: ps, s, h => by
    rw [List.map_cons, rxRun, snRun,
      llUnitdataInd_encode (h p List.mem_cons_self).1 (h p List.mem_cons_self).2]
    cases rxSn s p with
    | ok x =>
      obtain ⟨s1, o⟩ := x
      simp only
      rw [rxRun_encode ps s1 (fun q hq => h q (List.mem_cons_of_mem _ hq))]
      cases snRun s1 ps <;> rfl
    | err e => rfl
    | ub f => rfl

theorem snRun_append : ∀ (ps qs : List SnPdu) (s s1 : Defrag) (ds : List Octets),
    snRun s ps = .ok (s1, ds) → snRun s (ps ++ qs) = (match snRun s1 qs with
      | .ok (s2, ds2) => .ok (s2, ds ++ ds2)
      | r => r)
  | [], qs, s, s1, ds, h => by
    simp only [snRun, Res.ok.injEq, Prod.mk.injEq] at h
    obtain ⟨rfl, rfl⟩ := h
    simp only [List.nil_append]
    cases snRun s qs with
    | ok x => rfl
    | err e => rfl
    | ub f => rfl
  | p :: ps, qs, s, s1, ds, h => by
    rw [List.cons_append, snRun]
    rw [snRun] at h
    cases hr : rxSn s p with
    | err e => rw [hr] at h; cases h
    | ub f => rw [hr] at h; cases h
    | ok x =>
      obtain ⟨t, o⟩ := x
      rw [hr] at h
      simp only at h ⊢
      cases hs : snRun t ps with
      | err e => rw [hs] at h; cases h
      | ub f => rw [hs] at h; cases h
      | ok y =>
        obtain ⟨t2, es⟩ := y
        rw [hs] at h
        simp only [Res.ok.injEq, Prod.mk.injEq] at h
        obtain ⟨rfl, rfl⟩ := h
        rw [snRun_append ps qs t t2 es hs]
        cases snRun t2 qs with
        | ok z => cases o <;> rfl
        | err e => rfl
        | ub f => rfl

/-- What the reassembly state knows about the segments `A` received since the last first one. -/
structure Inv (s : Defrag) (A : List SnPdu) : Prop where
  frags : ∀ f ∈ s.frags, ∃ p ∈ A, f = (p.seg, p.payload)
  tot : s.totLen = totalLen A % 4294967296
  more : s.noMore = true ↔ ∃ p ∈ A, p.more = false
  bits : ∀ i, s.segHave.testBit i = true ↔ ∃ p ∈ A, p.seg = i
  upper : ∀ p ∈ A, p.seg ≤ s.highestSeg
  reached : s.highestSeg = 0 ∨ ∃ p ∈ A, p.seg = s.highestSeg

theorem inv_init : Inv {} [] :=
  ⟨by simp, rfl, by simp, by simp, by simp, Or.inl rfl⟩

theorem totalLen_append (A B : List SnPdu) : totalLen (A ++ B) = totalLen A + totalLen B := by
  simp [totalLen]

theorem totalLen_singleton (p : SnPdu) : totalLen [p] = p.payload.length := by simp [totalLen]

/-- The state after storing a further segment. -/
def store (s : Defrag) (p : SnPdu) : Defrag :=
  if p.more then defragEnqueue s p.seg p.payload
  else { defragEnqueue s p.seg p.payload with noMore := true }

theorem store_frags (s : Defrag) (p : SnPdu) : (store s p).frags = (p.seg, p.payload) :: s.frags := by
  unfold store
  split <;> rfl

theorem inv_store {s : Defrag} {A : List SnPdu} (h : Inv s A) (p : SnPdu) :
    Inv (store s p) (A ++ [p]) := by
  have hs1 : (store s p).totLen = (s.totLen + p.payload.length) % 4294967296 := by
    unfold store
    split <;> rfl
  have hs2 : (store s p).noMore = (s.noMore || !p.more) := by
    unfold store
    split <;> simp [defragEnqueue, *]
  have hs3 : (store s p).segHave = s.segHave ||| (1 <<< p.seg) := by
    unfold store
    split <;> rfl
  have hs4 : (store s p).highestSeg = if p.seg > s.highestSeg then p.seg else s.highestSeg := by
    unfold store
    split <;> rfl
  refine ⟨?_, ?_, ?_, ?_, ?_, ?_⟩
  · intro f hf
    rw [store_frags] at hf
    rcases List.mem_cons.mp hf with rfl | hf
    · exact ⟨p, by simp, rfl⟩
    · obtain ⟨q, hq, rfl⟩ := h.frags f hf
      exact ⟨q, by simp [hq], rfl⟩
  · rw [hs1, h.tot, totalLen_append, totalLen_singleton]
    omega
  · rw [hs2, Bool.or_eq_true, h.more]
    constructor
    · rintro (⟨q, hq, hm⟩ | hp)
      · exact ⟨q, by simp [hq], hm⟩
      · exact ⟨p, by simp, by simpa using hp⟩
    · rintro ⟨q, hq, hm⟩
      rcases List.mem_append.mp hq with hq | hq
      · exact Or.inl ⟨q, hq, hm⟩
      · have : q = p := by simpa using hq
        subst this
        exact Or.inr (by simp [hm])
  · intro i
    rw [hs3, Nat.testBit_or, Nat.one_shiftLeft, Nat.testBit_two_pow, Bool.or_eq_true, h.bits,
      decide_eq_true_eq]
    constructor
    · rintro (⟨q, hq, hm⟩ | hp)
      · exact ⟨q, by simp [hq], hm⟩
      · exact ⟨p, by simp, hp⟩
    · rintro ⟨q, hq, hm⟩
      rcases List.mem_append.mp hq with hq | hq
      · exact Or.inl ⟨q, hq, hm⟩
      · have : q = p := by simpa using hq
        subst this
        exact Or.inr hm
  · intro q hq
    rw [hs4]
    rcases List.mem_append.mp hq with hq | hq
    · have := h.upper q hq
      split <;> omega
    · have : q = p := by simpa using hq
      subst this
      split <;> omega
  · rw [hs4]
    split
    · exact Or.inr ⟨p, by simp, rfl⟩
    · rcases h.reached with h | ⟨q, hq, he⟩
      · exact Or.inl h
      · exact Or.inr ⟨q, by simp [hq], he⟩

theorem Inv.shrink {s : Defrag} {A : List SnPdu} (h : Inv s A) {fs : List (Nat × Octets)}
    (hf : ∀ f ∈ fs, f ∈ s.frags) : Inv { s with frags := fs } A :=
  ⟨fun f hm => h.frags f (hf f hm), h.tot, h.more, h.bits, h.upper, h.reached⟩

theorem Inv.comp {s : Defrag} {A : List SnPdu} (h : Inv s A) (a b : Nat) :
    Inv { s with pcomp := a, dcomp := b } A :=
  ⟨h.frags, h.tot, h.more, h.bits, h.upper, h.reached⟩

/-- With all segments present the numbers seen are exactly those up to the highest. -/
theorem Inv.all {s : Defrag} {A : List SnPdu} (h : Inv s A) :
    haveAll s = true ↔ ∀ i, (∃ p ∈ A, p.seg = i) ↔ i ≤ s.highestSeg := by
  rw [haveAll_iff]
  constructor
  · intro hh i
    rw [← h.bits i, hh i, decide_eq_true_eq]
  · intro hh i
    have := (h.bits i).trans (hh i)
    cases hb : s.segHave.testBit i with
    | true => simp [this.mp hb]
    | false =>
      symm
      simp only [decide_eq_false_iff_not]
      intro hle
      rw [this.mpr hle] at hb
      cases hb

/-- A delivery consists of received segments with the numbers 0, 1, 2, … in this order, and is as
long as everything received since the first segment. -/
def From (A : List SnPdu) (k tot : Nat) (d : Octets) : Prop :=
  ∃ segs : List SnPdu, (∀ p ∈ segs, p ∈ A) ∧ segs.map SnPdu.seg = List.range k ∧
    d = ((segs.map SnPdu.payload).flatten ++ List.replicate tot 0).take tot

theorem defragSegments_inv {s s' : Defrag} {A : List SnPdu} (h : Inv s A) {o : RxOut}
    (hr : defragSegments s = .ok (s', o)) :
    Inv s' A ∧ ∀ d, o = .deliver d → From A (s.highestSeg + 1) s.totLen d := by
  rw [defragSegments] at hr
  cases hc : collect (s.totLen + 256) (List.range (s.highestSeg + 1)) s.frags [] with
  | err e => rw [hc] at hr; cases hr
  | ub f => rw [hc] at hr; cases hr
  | ok x =>
    obtain ⟨ob, rest⟩ := x
    rw [hc] at hr
    cases ob with
    | none =>
      simp only [Res.ok.injEq, Prod.mk.injEq] at hr
      obtain ⟨rfl, rfl⟩ := hr
      exact ⟨h.shrink (collect_none _ _ _ _ hc), fun d hd => by cases hd⟩
    | some buf =>
      simp only at hr
      split at hr
      · cases hr
      · simp only [Res.ok.injEq, Prod.mk.injEq] at hr
        obtain ⟨rfl, rfl⟩ := hr
        obtain ⟨h1, picked, h2, h3, h4⟩ := collect_some _ _ _ _ _ hc
        refine ⟨h.shrink h1, ?_⟩
        intro d hd
        cases hd
        -- every picked fragment is a received segment
        have : ∀ l : List (Nat × Octets), (∀ f ∈ l, f ∈ s.frags) → ∃ segs : List SnPdu,
            (∀ p ∈ segs, p ∈ A) ∧ segs.map SnPdu.seg = l.map Prod.fst ∧
            segs.map SnPdu.payload = l.map Prod.snd := by
          intro l
          induction l with
          | nil => intro _; exact ⟨[], by simp, rfl, rfl⟩
          | cons f l ih =>
            intro hl
            obtain ⟨segs, i1, i2, i3⟩ := ih (fun g hg => hl g (List.mem_cons_of_mem _ hg))
            obtain ⟨p, hp, rfl⟩ := h.frags f (hl f List.mem_cons_self)
            refine ⟨p :: segs, ?_, by simp [i2], by simp [i3]⟩
            intro q hq
            rcases List.mem_cons.mp hq with rfl | hq
            · exact hp
            · exact i1 q hq
        obtain ⟨segs, i1, i2, i3⟩ := this picked h2
        exact ⟨segs, i1, by rw [i2, h3], by rw [h4, i3, List.nil_append]⟩

/-- The state in which the segment of a first PDU is stored. -/
def fresh (s : Defrag) (npdu : Nat) : Defrag :=
  { s with frags := [], npdu := npdu, noMore := false, highestSeg := 0, segHave := 0, totLen := 0 }

theorem inv_fresh (s : Defrag) (n : Nat) : Inv (fresh s n) [] :=
  ⟨by simp [fresh], rfl, by simp [fresh], by simp [fresh], by simp, Or.inl rfl⟩

theorem defragSeg_eq (s : Defrag) (p : SnPdu) :
    defragSeg s p.first p.more p.npdu p.seg p.payload =
      (let s2 := store (if p.first then fresh s p.npdu else s) p
       if s2.noMore && haveAll s2 then defragSegments s2 else .ok (s2, .quiet)) := by
  rfl

/-- Invariant and provenance for one PDU. -/
theorem rxSn_inv {s s' : Defrag} {A : List SnPdu} (h : Inv s A) {p : SnPdu} {o : RxOut}
    (hr : rxSn s p = .ok (s', o)) :
    Inv s' (if p.first then (if p.more then [p] else A) else A ++ [p]) ∧
    ∀ d, o = .deliver d →
      (p.first = true ∧ p.more = false ∧ d = p.payload) ∨
      (¬ (p.first = true ∧ p.more = false) ∧
        let B := if p.first then [p] else A ++ [p]
        (∃ q ∈ B, q.more = false) ∧ ∃ k, (∀ i, (∃ q ∈ B, q.seg = i) ↔ i < k) ∧
          From B k (totalLen B % 4294967296) d) := by
  have key : ∀ (t : Defrag) (B : List SnPdu), Inv t B →
      (if t.noMore && haveAll t then defragSegments t else .ok (t, .quiet)) = .ok (s', o) →
      Inv s' B ∧ ∀ d, o = .deliver d → (∃ q ∈ B, q.more = false) ∧
        ∃ k, (∀ i, (∃ q ∈ B, q.seg = i) ↔ i < k) ∧ From B k (totalLen B % 4294967296) d := by
    intro t B hB he
    split at he
    · rename_i hcond
      rw [Bool.and_eq_true] at hcond
      obtain ⟨h1, h2⟩ := defragSegments_inv hB he
      refine ⟨h1, fun d hd => ⟨hB.more.mp hcond.1, t.highestSeg + 1, ?_, ?_⟩⟩
      · intro i
        rw [hB.all.mp hcond.2 i]
        omega
      · rw [← hB.tot]
        exact h2 d hd
    · simp only [Res.ok.injEq, Prod.mk.injEq] at he
      obtain ⟨rfl, rfl⟩ := he
      exact ⟨hB, fun d hd => by cases hd⟩
  rw [rxSn] at hr
  cases hf : p.first with
  | true =>
    rw [hf] at hr
    simp only [if_true] at hr ⊢
    cases hm : p.more with
    | true =>
      rw [hm] at hr
      simp only [if_true] at hr ⊢
      have hd := defragSeg_eq { s with pcomp := 0, dcomp := 0 } p
      rw [hf, hm] at hd
      rw [hd] at hr
      obtain ⟨h1, h2⟩ := key _ _ (inv_store (inv_fresh { s with pcomp := 0, dcomp := 0 } p.npdu) p) hr
      refine ⟨h1, fun d hd => Or.inr ⟨by simp, h2 d hd⟩⟩
    | false =>
      rw [hm] at hr
      simp only [Bool.false_eq_true, if_false] at hr ⊢
      split at hr
      · simp only [Res.ok.injEq, Prod.mk.injEq] at hr
        obtain ⟨rfl, rfl⟩ := hr
        exact ⟨h.comp 0 0, fun d hd => by cases hd⟩
      · simp only [Res.ok.injEq, Prod.mk.injEq] at hr
        obtain ⟨rfl, rfl⟩ := hr
        refine ⟨h.comp 0 0, fun d hd => Or.inl ⟨trivial, trivial, ?_⟩⟩
        cases hd
        rfl
  | false =>
    rw [hf] at hr
    simp only [Bool.false_eq_true, if_false] at hr ⊢
    have hd := defragSeg_eq s p
    rw [hf] at hd
    rw [hd] at hr
    obtain ⟨h1, h2⟩ := key _ _ (inv_store h p) hr
    exact ⟨h1, fun d hd => Or.inr ⟨by simp, h2 d hd⟩⟩

/-! ## A complete set of segments -/

theorem getSeg_of_mem : ∀ {fs : List (Nat × Octets)} {i : Nat} {d : Octets},
    (fs.map Prod.fst).Nodup → (i, d) ∈ fs → (getSeg fs i).map Prod.fst = some d
  | [], _, _, _, h => by simp at h
  | f :: fs, i, d, hn, h => by
    rw [List.map_cons, List.nodup_cons] at hn
    rw [getSeg]
    by_cases hf : f.1 = i
    · simp only [hf, if_true, Option.map_some, Option.some.injEq]
      rcases List.mem_cons.mp h with h | h
      · rw [← h]
      · exfalso
        exact hn.1 (hf ▸ List.mem_map_of_mem (f := Prod.fst) h)
    · simp only [hf, if_false]
      rcases List.mem_cons.mp h with h | h
      · exact absurd (by rw [← h]) hf
      · have ih := getSeg_of_mem hn.2 h
        cases hg : getSeg fs i with
        | none => rw [hg] at ih; cases ih
        | some x => rw [hg] at ih; simpa using ih

/-- Facts about a numbered segmentation. -/
theorem seg_facts {n201u nsapi num : Nat} {npdu : Octets} {ps : List SnPdu}
    (hs : Segmentation n201u nsapi num npdu ps) (hn : Numbered ps) :
    ps.map SnPdu.seg = List.range ps.length ∧
    ∀ p ∈ ps, ps[p.seg]? = some p ∧ (p.first = true ↔ p.seg = 0) ∧
      (p.more = false ↔ p.seg + 1 = ps.length) := by
  constructor
  · apply List.ext_getElem?
    intro i
    rw [List.getElem?_map]
    rcases Nat.lt_or_ge i ps.length with h | h
    · rw [List.getElem?_eq_getElem h, List.getElem?_range h]
      simp only [Option.map_some, Option.some.injEq]
      exact hn i _ (List.getElem?_eq_getElem h)
    · rw [List.getElem?_eq_none h, List.getElem?_eq_none (by simpa using h)]
      rfl
  · intro p hp
    obtain ⟨i, hi, rfl⟩ := List.getElem_of_mem hp
    have hg := List.getElem?_eq_getElem hi
    have hseg := hn i _ hg
    rw [hseg]
    refine ⟨hg, hs.first_iff i _ hg, ?_⟩
    have := hs.more_iff i _ hg
    cases hm : (ps[i]).more with
    | true => rw [hm] at this; simp at this ⊢; omega
    | false => rw [hm] at this; simp at this ⊢; omega

/-- Once all segments are stored, whatever order they came in, the N-PDU is handed up and nothing
stays behind. -/
theorem complete {n201u nsapi num : Nat} {npdu : Octets} {ps : List SnPdu}
    (hs : Segmentation n201u nsapi num npdu ps) (hn : Numbered ps) (hl : npdu.length ≤ 65279)
    {s : Defrag} {A : List SnPdu} (hp : A.Perm ps) (hi : Inv s A)
    (hf : s.frags = (A.map (fun p => (p.seg, p.payload))).reverse) :
    s.noMore = true ∧ haveAll s = true ∧ ∃ s', defragSegments s = .ok (s', .deliver npdu) ∧
      s'.frags = [] := by
  obtain ⟨hseg, hfacts⟩ := seg_facts hs hn
  have hne : 0 < ps.length := List.length_pos_iff.mpr hs.nonempty
  have hperm : ∀ p, p ∈ A ↔ p ∈ ps := fun p => hp.mem_iff
  have hmem : ∀ i, (∃ p ∈ A, p.seg = i) ↔ i < ps.length := by
    intro i
    have : (∃ p ∈ A, p.seg = i) ↔ i ∈ ps.map SnPdu.seg := by
      rw [List.mem_map]
      constructor
      · rintro ⟨p, h1, h2⟩
        exact ⟨p, (hperm p).mp h1, h2⟩
      · rintro ⟨p, h1, h2⟩
        exact ⟨p, (hperm p).mpr h1, h2⟩
    rw [this, hseg, List.mem_range]
  have hhigh : s.highestSeg + 1 = ps.length := by
    obtain ⟨p, hpA, hps⟩ := (hmem (ps.length - 1)).mpr (by omega)
    have h1 := hi.upper p hpA
    rcases hi.reached with h2 | ⟨q, hq, h2⟩
    · omega
    · have := (hmem s.highestSeg).mp ⟨q, hq, h2⟩
      omega
  have hmore : s.noMore = true := by
    rw [hi.more]
    obtain ⟨p, hpA, hps⟩ := (hmem (ps.length - 1)).mpr (by omega)
    exact ⟨p, hpA, ((hfacts p ((hperm p).mp hpA)).2.2).mpr (by omega)⟩
  have hall : haveAll s = true := by
    rw [hi.all]
    intro i
    rw [hmem i]
    omega
  have htot : totalLen A = npdu.length := by
    have h1 : totalLen A = totalLen ps := by
      unfold totalLen
      exact (hp.map _).sum_nat
    rw [h1, ← hs.payload, List.length_flatten, List.map_map]
    rfl
  have htl : s.totLen = npdu.length := by
    rw [hi.tot, htot]
    omega
  refine ⟨hmore, hall, ?_⟩
  -- the fragments by number
  have hnd : (s.frags.map Prod.fst).Nodup := by
    rw [hf, List.map_reverse, (List.reverse_perm _).nodup_iff, List.map_map]
    have : (A.map (Prod.fst ∘ fun p => (p.seg, p.payload))) = A.map SnPdu.seg := rfl
    rw [this, (hp.map SnPdu.seg).nodup_iff, hseg]
    exact List.nodup_range
  have hget : ∀ i ∈ List.range (s.highestSeg + 1),
      (getSeg s.frags i).map Prod.fst = some ((ps[i]?.map SnPdu.payload).getD []) := by
    intro i hir
    have hlt : i < ps.length := by
      have := List.mem_range.mp hir
      omega
    have hg := List.getElem?_eq_getElem hlt
    apply getSeg_of_mem hnd
    rw [hf, List.mem_reverse, List.mem_map]
    refine ⟨ps[i], (hperm _).mpr (List.getElem_mem hlt), ?_⟩
    rw [hg, hn i _ hg]
    rfl
  have hd : ((List.range (s.highestSeg + 1)).map
      (fun i => (ps[i]?.map SnPdu.payload).getD [])).flatten = npdu := by
    rw [← hs.payload]
    congr 1
    apply List.ext_getElem?
    intro i
    rw [hhigh, List.getElem?_map, List.getElem?_map]
    rcases Nat.lt_or_ge i ps.length with h | h
    · rw [List.getElem?_range h]
      simp [h]
    · rw [List.getElem?_eq_none (by simpa using h), List.getElem?_eq_none h]
      rfl
  have hsz : 128 + (([] : Octets) ++ ((List.range (s.highestSeg + 1)).map
      (fun i => (ps[i]?.map SnPdu.payload).getD [])).flatten).length ≤
      (s.totLen + 256) % 65536 := by
    rw [List.nil_append, hd, htl]
    omega
  obtain ⟨rest, hc, hlen⟩ := collect_ok (List.range (s.highestSeg + 1)) s.frags [] List.nodup_range
    hget hsz
  have hrest : rest = [] := by
    rw [List.length_range, hf, List.length_reverse, List.length_map, hp.length_eq] at hlen
    apply List.length_eq_zero_iff.mp
    omega
  refine ⟨{ s with frags := rest }, ?_, hrest⟩
  rw [defragSegments, hc]
  have hfit : msgbFits (s.totLen + 256) 128 s.totLen = true := by
    simp only [msgbFits, decide_eq_true_eq]
    omega
  simp only [hfit, Bool.not_true, Bool.false_eq_true, if_false, List.nil_append, hd]
  rw [htl, List.take_left']
  rfl

/-- The rest of the segments of an N-PDU, in any order. -/
theorem rest_run {n201u nsapi num : Nat} {npdu : Octets} {ps : List SnPdu}
    (hs : Segmentation n201u nsapi num npdu ps) (hn : Numbered ps) (hl : npdu.length ≤ 65279) :
    ∀ (Q P : List SnPdu) (s : Defrag), Q ≠ [] → (P ++ Q).Perm ps → (∀ q ∈ Q, q.first = false) →
      Inv s P → s.frags = (P.map (fun p => (p.seg, p.payload))).reverse →
      ∃ s', snRun s Q = .ok (s', [npdu]) ∧ s'.frags = []
  | [], P, s, hQ, _, _, _, _ => absurd rfl hQ
  | q :: Q, P, s, _, hp, hq, hi, hf => by
    obtain ⟨hseg, hfacts⟩ := seg_facts hs hn
    have hstore := inv_store hi q
    have hfr : (store s q).frags = ((P ++ [q]).map (fun p => (p.seg, p.payload))).reverse := by
      rw [store_frags, hf]
      simp
    have hrx : rxSn s q = (if (store s q).noMore && haveAll (store s q) then
        defragSegments (store s q) else .ok (store s q, .quiet)) := by
      have hq1 := hq q List.mem_cons_self
      have hd := defragSeg_eq s q
      rw [hq1] at hd
      rw [rxSn, hq1]
      simp only [Bool.false_eq_true, if_false]
      exact hd
    have hp' : ((P ++ [q]) ++ Q).Perm ps := by simpa using hp
    rw [snRun, hrx]
    cases hQ : Q with
    | nil =>
      rw [hQ, List.append_nil] at hp'
      obtain ⟨h1, h2, s', h3, h4⟩ := complete hs hn hl hp' hstore hfr
      refine ⟨s', ?_, h4⟩
      simp only [h1, h2, Bool.and_self, if_true, h3, snRun]
    | cons x Q' =>
      have hnot : ((store s q).noMore && haveAll (store s q)) = false := by
        cases hc : ((store s q).noMore && haveAll (store s q)) with
        | false => rfl
        | true =>
          exfalso
          rw [Bool.and_eq_true] at hc
          obtain ⟨p, hpP, hpm⟩ := hstore.more.mp hc.1
          have hpps : p ∈ ps := hp'.mem_iff.mp (List.mem_append_left _ hpP)
          have hlast := ((hfacts p hpps).2.2).mp hpm
          have hup := hstore.upper p hpP
          have hxps : x ∈ ps := hp'.mem_iff.mp (by rw [hQ]; simp)
          have hxlt : x.seg < ps.length := by
            have : x.seg ∈ ps.map SnPdu.seg := List.mem_map_of_mem hxps
            rw [hseg, List.mem_range] at this
            exact this
          obtain ⟨y, hy, hys⟩ := (hstore.all.mp hc.2 x.seg).mpr (by omega)
          have hnd : ((P ++ [q] ++ Q).map SnPdu.seg).Nodup := by
            rw [(hp'.map SnPdu.seg).nodup_iff, hseg]
            exact List.nodup_range
          rw [List.map_append, List.nodup_append] at hnd
          exact hnd.2.2 _ (List.mem_map_of_mem hy) x.seg
            (by rw [hQ]; exact List.mem_map_of_mem List.mem_cons_self) hys
      obtain ⟨s', h1, h2⟩ := rest_run hs hn hl Q (P ++ [q]) (store s q) (by rw [hQ]; simp) hp'
        (fun y hy => hq y (List.mem_cons_of_mem _ hy)) hstore hfr
      refine ⟨s', ?_, h2⟩
      simp only [hnot, Bool.false_eq_true, if_false]
      rw [← hQ, h1]

/-- The first segment starts over, whatever the state was. -/
theorem first_run (s : Defrag) {p : SnPdu} (hf : p.first = true) (hm : p.more = true) :
    ∃ s', rxSn s p = .ok (s', .quiet) ∧ Inv s' [p] ∧ s'.frags = [(p.seg, p.payload)] := by
  have hd := defragSeg_eq { s with pcomp := 0, dcomp := 0 } p
  rw [hf, hm] at hd
  refine ⟨store (fresh { s with pcomp := 0, dcomp := 0 } p.npdu) p, ?_,
    inv_store (inv_fresh _ _) p, store_frags _ _⟩
  have hno : (store (fresh { s with pcomp := 0, dcomp := 0 } p.npdu) p).noMore = false := by
    simp [store, hm, defragEnqueue, fresh]
  rw [rxSn, hf, hm]
  simp only [if_true]
  rw [hd]
  simp only [if_true, hno, Bool.false_and, Bool.false_eq_true, if_false]

/-- All segments of an N-PDU, the first one first: it is handed up, whatever the state was. -/
theorem npdu_run {n201u nsapi num : Nat} {npdu : Octets} {ps arr : List SnPdu} {p0 : SnPdu}
    (hs : Segmentation n201u nsapi num npdu ps) (hn : Numbered ps) (hl : npdu.length ≤ 65279)
    (hne : npdu ≠ []) (h0 : ps.head? = some p0) (hp : (p0 :: arr).Perm ps) (s : Defrag) :
    ∃ s', snRun s (p0 :: arr) = .ok (s', [npdu]) ∧ (arr ≠ [] → s'.frags = []) := by
  obtain ⟨hseg, hfacts⟩ := seg_facts hs hn
  have h00 : ps[0]? = some p0 := by rw [← List.head?_eq_getElem?]; exact h0
  have hf0 : p0.first = true := (hs.first_iff 0 p0 h00).mpr rfl
  have hs0 : p0.seg = 0 := hn 0 p0 h00
  have hlen : arr.length + 1 = ps.length := by simpa using hp.length_eq
  cases ha : arr with
  | nil =>
    have hm0 : p0.more = false := by
      rw [(hfacts p0 (hp.mem_iff.mp List.mem_cons_self)).2.2, hs0]
      rw [ha] at hlen
      simpa using hlen
    have hpl : p0.payload = npdu := by
      have h1 : ps = [p0] := by
        rw [ha] at hp
        exact List.singleton_perm.mp hp |>.symm
      rw [← hs.payload, h1]
      simp
    refine ⟨{ s with pcomp := 0, dcomp := 0 }, ?_, fun h => absurd rfl h⟩
    rw [snRun, rxSn, hf0, hm0, hpl]
    simp only [if_true, Bool.false_eq_true, if_false, hne, snRun]
  | cons a arr' =>
    rw [← ha]
    have hm0 : p0.more = true := by
      rw [hs.more_iff 0 p0 h00]
      rw [ha] at hlen
      simp at hlen
      omega
    obtain ⟨s1, h1, h2, h3⟩ := first_run s hf0 hm0
    have hnf : ∀ q ∈ arr, q.first = false := by
      intro q hq
      have hqps : q ∈ ps := hp.mem_iff.mp (List.mem_cons_of_mem _ hq)
      cases hqf : q.first with
      | false => rfl
      | true =>
        exfalso
        have hq0 := ((hfacts q hqps).2.1).mp hqf
        have hnd : ((p0 :: arr).map SnPdu.seg).Nodup := by
          rw [(hp.map SnPdu.seg).nodup_iff, hseg]
          exact List.nodup_range
        rw [List.map_cons, List.nodup_cons] at hnd
        exact hnd.1 (by rw [hs0, ← hq0]; exact List.mem_map_of_mem hq)
    obtain ⟨s', h4, h5⟩ := rest_run hs hn hl arr [p0] s1 (by rw [ha]; simp) hp hnf h2 (by simpa using h3)
    refine ⟨s', ?_, fun _ => h5⟩
    rw [snRun, h1]
    simp only [h4]

/-! ## Late duplicates -/

/-- No fragment with segment number 0 is stored: nothing can be handed up. -/
def NoZero (s : Defrag) : Prop := ∀ f ∈ s.frags, f.1 ≠ 0

theorem noZero_step {s : Defrag} (h : NoZero s) {p : SnPdu} (hf : p.first = false)
    (hs : p.seg ≠ 0) : ∃ s' o, rxSn s p = .ok (s', o) ∧ NoZero s' ∧ ∀ d, o ≠ .deliver d := by
  have hd := defragSeg_eq s p
  rw [hf] at hd
  rw [rxSn, hf]
  simp only [Bool.false_eq_true, if_false]
  rw [hd]
  simp only [Bool.false_eq_true, if_false]
  have hz : NoZero (store s p) := by
    intro f hfm
    rw [store_frags] at hfm
    rcases List.mem_cons.mp hfm with rfl | hfm
    · exact hs
    · exact h f hfm
  split
  · have hg : getSeg (store s p).frags 0 = none := getSeg_none_iff.mpr hz
    refine ⟨store s p, .error .eio, ?_, hz, fun d hd => by cases hd⟩
    rw [defragSegments, List.range_succ_eq_map, collect, hg]
  · exact ⟨_, _, rfl, hz, fun d hd => by cases hd⟩

theorem noZero_run : ∀ (ps : List SnPdu) (s : Defrag), NoZero s →
    (∀ p ∈ ps, p.first = false ∧ p.seg ≠ 0) → ∃ s', snRun s ps = .ok (s', []) ∧ NoZero s'
  | [], s, h, _ => ⟨s, rfl, h⟩
  | p :: ps, s, h, hp => by
    obtain ⟨s1, o, h1, h2, h3⟩ := noZero_step h (hp p List.mem_cons_self).1
      (hp p List.mem_cons_self).2
    obtain ⟨s2, h4, h5⟩ := noZero_run ps s1 h2 (fun q hq => hp q (List.mem_cons_of_mem _ hq))
    refine ⟨s2, ?_, h5⟩
    rw [snRun, h1]
    cases o with
    | deliver d => exact absurd rfl (h3 d)
    | quiet => simp only [h4]
    | error e => simp only [h4]

end Verif.Sndcp
