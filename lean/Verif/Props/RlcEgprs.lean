import Verif.Rlc.EgprsBits
import Verif.Rlc.EgprsTx
import Verif.Props.RlcParse

/-!
# C136–C140: EGPRS data blocks
-/
namespace Verif.Props

open Verif Verif.Rlc Verif.Spec

/-! ## C136: payloads of a block -/

/-- The numbers the code computes for a block are those of the standard. -/
theorem dataInfo_spec : ∀ up pad : Bool, ∀ cs ∈ [1, 2, 3, 4, 5, 6, 7, 8, 9, 10, 11, 12, 13],
    ∃ i, dataInfoInit up cs pad = .ok i ∧ i.n = payloads cs ∧ i.len = payloadLen cs pad ∧
      ∀ k, k < payloads cs → i.offs k = payloadStart up cs pad k := by
  have hk : ∀ up pad : Bool, ∀ cs ∈ [1, 2, 3, 4, 5, 6, 7, 8, 9, 10, 11, 12, 13], ∀ k < 2, k < payloads cs →
      (if up then hdrBitsUl (hdrType cs) else hdrBitsDl (hdrType cs)) + (if pad then optPadBits cs else 0) +
        (k + 1) * blkHdrBits (hdrType cs) + k * 8 * blkDataLen cs pad = payloadStart up cs pad k := by decide +kernel
  have hn : ∀ pad : Bool, ∀ cs ∈ [1, 2, 3, 4, 5, 6, 7, 8, 9, 10, 11, 12, 13],
      isValidCs cs = true ∧ numBlocks (hdrType cs) = payloads cs ∧ payloads cs ≤ 2 ∧
        blkDataLen cs pad = payloadLen cs pad := by decide +kernel
  intro up pad cs hc
  obtain ⟨h1, h2, h3, h4⟩ := hn pad cs hc
  have hok : dataInfoInit up cs pad = .ok
      { n := numBlocks (hdrType cs), len := blkDataLen cs pad,
        offs := fun i => (if up then hdrBitsUl (hdrType cs) else hdrBitsDl (hdrType cs)) +
          (if pad then optPadBits cs else 0) + (i + 1) * blkHdrBits (hdrType cs) + i * 8 * blkDataLen cs pad } := by
    rw [dataInfoInit, if_pos h1, dataHeaderInit]
    rw [if_pos (by omega)]
  exact ⟨_, hok, h2, h4, fun k hlt => hk up pad cs hc k (by omega) hlt⟩

theorem layout_fits : ∀ up pad : Bool, ∀ cs ∈ [1, 2, 3, 4, 5, 6, 7, 8, 9, 10, 11, 12, 13],
    0 < payloadLen cs pad ∧ blockBits up cs ≤ 8 * blockOctets cs ∧
    payloadStart up cs pad (payloads cs - 1) + 8 * payloadLen cs pad = blockBits up cs ∧
    ∀ k < 2, k < payloads cs → payloadStart up cs pad k + 8 * payloadLen cs pad ≤ 8 * blockOctets cs := by
  decide +kernel

theorem areas_apart : ∀ up pad : Bool, ∀ cs ∈ [11, 12, 13],
    payloadStart up cs pad 0 + 8 * payloadLen cs pad + 2 = payloadStart up cs pad 1 := by decide +kernel

/-- C136: for every coding scheme (CS-1 … CS-4, MCS-1 … MCS-9), in both directions, padded or not: the payloads of a
block lie where the standard puts them, the last one ends with the block, and the block fits its buffer.  Writing any
payload into any block puts its bits there, in order, least significant bits first, and leaves every other bit of the
block alone; reading a payload gives the bits of its place.  So, whatever the block held before, the payloads written
(in either order, for the two of MCS-7 … MCS-9) are the payloads read. -/
theorem c136_payloads (up pad : Bool) (cs : Nat) (hcs : 1 ≤ cs ∧ cs ≤ 13) :
    ∃ i, dataInfoInit up cs pad = .ok i ∧
      blockBits up cs ≤ 8 * blockOctets cs ∧
      payloadStart up cs pad (payloads cs - 1) + 8 * payloadLen cs pad = blockBits up cs ∧
      (∀ k < payloads cs, ∀ block payload : Octets, block.length = blockOctets cs →
        payload.length = payloadLen cs pad →
        ∃ block', copyFromAligned i k block payload = .ok block' ∧ block'.length = block.length ∧
          (∀ j < 8 * payloadLen cs pad, bitAt block' (payloadStart up cs pad k + j) = bitAt payload j) ∧
          (∀ j, (j < payloadStart up cs pad k ∨ payloadStart up cs pad k + 8 * payloadLen cs pad ≤ j) →
            bitAt block' j = bitAt block j)) ∧
      (∀ k < payloads cs, ∀ block buffer : Octets, block.length = blockOctets cs →
        buffer.length = payloadLen cs pad →
        ∃ payload, copyToAligned i k block buffer = .ok payload ∧ payload.length = payloadLen cs pad ∧
          ∀ j < 8 * payloadLen cs pad, bitAt payload j = bitAt block (payloadStart up cs pad k + j)) ∧
      (∀ k < payloads cs, ∀ block payload buffer : Octets, block.length = blockOctets cs →
        payload.length = payloadLen cs pad → buffer.length = payloadLen cs pad →
        ∃ block', copyFromAligned i k block payload = .ok block' ∧ copyToAligned i k block' buffer = .ok payload) ∧
      (payloads cs = 2 → ∀ k < 2, ∀ block payload payload' buffer : Octets, block.length = blockOctets cs →
        payload.length = payloadLen cs pad → payload'.length = payloadLen cs pad → buffer.length = payloadLen cs pad →
        ∃ block' block'', copyFromAligned i k block payload = .ok block' ∧
          copyFromAligned i (1 - k) block' payload' = .ok block'' ∧
          copyToAligned i k block'' buffer = .ok payload ∧ copyToAligned i (1 - k) block'' buffer = .ok payload') := by
  have hmem : cs ∈ [1, 2, 3, 4, 5, 6, 7, 8, 9, 10, 11, 12, 13] := by
    simp only [List.mem_cons, List.not_mem_nil, or_false]; omega
  obtain ⟨i, hi, hn, hlen, hoffs⟩ := dataInfo_spec up pad cs hmem
  obtain ⟨f1, f2, f3, f4⟩ := layout_fits up pad cs hmem
  have hn2 : payloads cs ≤ 2 := by unfold payloads; split <;> omega
  -- writing
  have W : ∀ k < payloads cs, ∀ block payload : Octets, block.length = blockOctets cs →
      payload.length = payloadLen cs pad →
      ∃ block', copyFromAligned i k block payload = .ok block' ∧ block'.length = block.length ∧
        ∀ j, bitAt block' j = if payloadStart up cs pad k ≤ j ∧ j < payloadStart up cs pad k + 8 * payloadLen cs pad then
          bitAt payload (j - payloadStart up cs pad k) else bitAt block j := by
    intro k hk block payload hb hp
    have := f4 k (by omega) hk
    obtain ⟨d, h1, h2, h3⟩ := copyFrom_ok i k (by omega) block payload (by omega) (by rw [hoffs k hk]; omega)
    refine ⟨d, h1, h2, ?_⟩
    rw [hoffs k hk, hlen] at h3
    exact h3
  -- reading
  have R : ∀ k < payloads cs, ∀ block buffer : Octets, block.length = blockOctets cs →
      buffer.length = payloadLen cs pad →
      ∃ payload, copyToAligned i k block buffer = .ok payload ∧ payload.length = payloadLen cs pad ∧
        ∀ j < 8 * payloadLen cs pad, bitAt payload j = bitAt block (payloadStart up cs pad k + j) := by
    intro k hk block buffer hb hbuf
    have := f4 k (by omega) hk
    obtain ⟨p, h1, h2, h3⟩ := copyTo_ok i k (by omega) block buffer (by omega) (by rw [hoffs k hk]; omega) (by omega)
    refine ⟨p, ?_, by omega, ?_⟩
    · rw [h1, List.drop_of_length_le (by omega), List.append_nil]
    · rw [hlen, hoffs k hk] at h3
      exact h3
  refine ⟨i, hi, f2, f3, ?_, R, ?_, ?_⟩
  · intro k hk block payload hb hp
    obtain ⟨d, h1, h2, h3⟩ := W k hk block payload hb hp
    refine ⟨d, h1, h2, fun j hj => ?_, fun j hj => ?_⟩
    · rw [h3, if_pos (by omega)]
      congr 1; omega
    · rw [h3, if_neg (by omega)]
  · intro k hk block payload buffer hb hp hbuf
    obtain ⟨d, h1, h2, h3⟩ := W k hk block payload hb hp
    obtain ⟨q, g1, g2, g3⟩ := R k hk d buffer (by omega) hbuf
    refine ⟨d, h1, ?_⟩
    rw [g1]
    congr 1
    apply octets_ext (by omega)
    intro j hj
    rw [g2] at hj
    rw [g3 j hj, h3, if_pos (by omega)]
    congr 1; omega
  · intro h2 k hk block payload payload' buffer hb hp hp' hbuf
    obtain ⟨d, h1, hl1, h3⟩ := W k (by omega) block payload hb hp
    obtain ⟨d', h1', hl1', h3'⟩ := W (1 - k) (by omega) d payload' (by omega) hp'
    obtain ⟨q, g1, g2, g3⟩ := R k (by omega) d' buffer (by omega) hbuf
    obtain ⟨q', g1', g2', g3'⟩ := R (1 - k) (by omega) d' buffer (by omega) hbuf
    have hcs3 : cs ∈ [11, 12, 13] := by
      unfold payloads at h2
      simp only [List.mem_cons, List.not_mem_nil, or_false]
      split at h2 <;> omega
    have hap := areas_apart up pad cs hcs3
    have hk01 : k = 0 ∨ k = 1 := by omega
    refine ⟨d, d', h1, h1', ?_, ?_⟩
    · rw [g1]
      congr 1
      apply octets_ext (by omega)
      intro j hj
      rw [g2] at hj
      rw [g3 j hj, h3', if_neg (by rcases hk01 with rfl | rfl <;> simp only [Nat.sub_zero, Nat.sub_self] <;> omega), h3,
        if_pos (by omega)]
      congr 1; omega
    · rw [g1']
      congr 1
      apply octets_ext (by omega)
      intro j hj
      rw [g2'] at hj
      rw [g3' j hj, h3', if_pos (by omega)]
      congr 1; omega

/-- An MCS-1 block: the payload starts with the second bit of the fifth octet. -/
example : ∃ i, dataInfoInit true 5 false = .ok i ∧
    copyFromAligned i 0 (List.replicate 27 0xff) (List.replicate 22 0x00) =
      .ok (List.replicate 4 0xff ++ [0x01] ++ List.replicate 21 0x00 ++ [0xfe]) :=
  ⟨_, rfl, by decide +kernel⟩

/-! ## C137: coding and puncturing scheme indicator -/

/-- The schemes commanded by the network are EGPRS schemes. -/
def Commanded (es : List BlkEv) : Prop := ∀ e ∈ es, e.valid

/-- C137: for every EGPRS block, whatever its payload and however often, with whatever schemes commanded, alone or
together with another block, with or without resegmentation, it has been sent: the transmissions never run into an
assertion; sending it alone once more produces a radio block whose coding and puncturing scheme indicator tells the
receiver exactly the coding scheme, the padding and the puncturing scheme of every payload; and so does sending it
together with any other block (with its own history) with which it can share a radio block. -/
theorem c137_indicator (init : Nat) (hi : 5 ≤ init ∧ init ≤ 13) (p : Octets) (hp : p.length = payloadLen init false)
    (es : List BlkEv) (hes : Commanded es) :
    ∃ b as, (EgBlk.new init p).run es = .ok (b, as) ∧
      (∃ c r cps, b.tx = .ok (c, r) ∧ r.cps = some cps ∧
        cpsMeaning (headerType r.cs) cps = some (r.cs, r.padded, r.areas.map (·.ps)) ∧ ∀ a ∈ r.areas, a.cs = r.cs) ∧
      (∀ init2 p2 es2 b2 as2, 5 ≤ init2 ∧ init2 ≤ 13 → p2.length = payloadLen init2 false → Commanded es2 →
        (EgBlk.new init2 p2).run es2 = .ok (b2, as2) → payloads b.cur = 2 → b2.cur = b.cur →
        ∃ c c2 r cps, txPair b b2 = .ok (c, c2, r) ∧ r.cps = some cps ∧
          cpsMeaning (headerType r.cs) cps = some (r.cs, r.padded, r.areas.map (·.ps)) ∧
          r.areas.map (·.data) = [p, p2]) := by
  have hm : init ∈ [5, 6, 7, 8, 9, 10, 11, 12, 13] := by
    simp only [List.mem_cons, List.not_mem_nil, or_false]; omega
  have hr := range_of_mem hm
  obtain ⟨b, as, h1, h2, h3⟩ := run_inv (NR := False) hm hp es (new_inv False hm) hes (fun h => h.elim)
  refine ⟨b, as, h1, ?_, ?_⟩
  · obtain ⟨c, r, g1, g2, g3, g4, g5, g6, g7, g8⟩ := tx_inv hr hp h2
    have h9 := schemes_facts init hr r.cs g4
    by_cases h11 : 11 ≤ r.cs
    · rw [if_pos h11] at g8
      obtain ⟨a1, a2, ha⟩ : ∃ a1 a2, r.areas = [a1, a2] := by
        match hh : r.areas, g8 with
        | [a1, a2], _ => exact ⟨a1, a2, rfl⟩
      have l1 := (g7 a1 (by rw [ha]; simp)).1
      have l2 := (g7 a2 (by rw [ha]; simp)).1
      have hc3 := punctCount_le r.cs
      obtain ⟨v, hv1, hv2⟩ := cps_two r.cs (by
        simp only [List.mem_cons, List.not_mem_nil, or_false] at h9 ⊢; omega) a1.ps (by omega) a2.ps (by omega)
      refine ⟨c, r, v, g1, ?_, ?_, fun a ha' => (g7 a ha').2⟩
      · rw [g6, g5, ha]; exact hv1
      · rw [hv2, g5, ha]; rfl
    · rw [if_neg h11] at g8
      obtain ⟨a1, ha⟩ : ∃ a1, r.areas = [a1] := by
        match hh : r.areas, g8 with
        | [a1], _ => exact ⟨a1, rfl⟩
      have l1 := (g7 a1 (by rw [ha]; simp)).1
      have hc3 := punctCount_le r.cs
      obtain ⟨v, hv1, hv2⟩ := cps_one r.padded r.cs (by
        simp only [List.mem_cons, List.not_mem_nil, or_false] at h9 ⊢; omega) (by rw [g5]; simp) a1.ps (by omega) l1
      refine ⟨c, r, v, g1, ?_, ?_, fun a ha' => (g7 a ha').2⟩
      · rw [g6, ha]; exact hv1
      · rw [hv2, ha]; rfl
  · intro init2 p2 es2 b2 as2 hi2 hp2 hes2 hrun2 hpay hcur
    have hm2 : init2 ∈ [5, 6, 7, 8, 9, 10, 11, 12, 13] := by
      simp only [List.mem_cons, List.not_mem_nil, or_false]; omega
    have hr2 := range_of_mem hm2
    obtain ⟨b2', as2', k1, k2, k3⟩ := run_inv (NR := False) hm2 hp2 es2 (new_inv False hm2) hes2 (fun h => h.elim)
    rw [hrun2] at k1
    injection k1 with k1
    injection k1 with k1 k1'
    subst k1 k1'
    have h9 := schemes_facts init hr b.cur h2.cur
    have h11 : 11 ≤ b.cur := by
      unfold payloads at hpay; split at hpay <;> omega
    have hnum : ∀ cs ∈ [11, 12, 13], numBlocks (hdrType cs) > 1 ∧ isValidCs cs = true ∧ numBlocks (hdrType cs) ≤ 2 := by
      decide
    have hc3 : b.cur ∈ [11, 12, 13] := by
      simp only [List.mem_cons, List.not_mem_nil, or_false] at h9 ⊢; omega
    obtain ⟨n1, n2, n3⟩ := hnum b.cur hc3
    obtain ⟨c, a, s1, _, s3, s4, s5⟩ := shared_inv hr hp h2 n1
    obtain ⟨c2, a2, t1, _, t3, t4, t5⟩ := shared_inv hr2 hp2 k2 (by rw [hcur]; exact n1)
    have hspb : b.spb = .noRetx := by
      have hht : ∀ cs ∈ [11, 12, 13], hdrType cs ≠ 5 := by decide
      unfold EgBlk.spb; rw [if_neg (hht _ hc3)]
    have l1 := s5.2.2.1
    have l2 := t5.2.2.1
    have c31 := punctCount_le a.cs
    have c32 := punctCount_le a2.cs
    obtain ⟨v, hv1, hv2⟩ := cps_two b.cur hc3 a.ps (by omega) a2.ps (by omega)
    have hinfo : dataInfoInit true b.cur false = .ok
        { n := numBlocks (hdrType b.cur), len := blkDataLen b.cur false,
          offs := fun i => hdrBitsUl (hdrType b.cur) + (if false then optPadBits b.cur else 0) +
            (i + 1) * blkHdrBits (hdrType b.cur) + i * 8 * blkDataLen b.cur false } := by
      rw [dataInfoInit, if_pos n2, dataHeaderInit]
      rw [if_pos n3]; rfl
    have hdata : ∀ {init' : Nat} {p' : Octets} {b' c' : EgBlk} {a' : Area} {prev : Option Area},
        b'.buf = p' ++ List.replicate (74 - p'.length) 0 → p'.length = blkDataLen b.cur false →
        b'.send b.cur (blkDataLen b.cur false) .noRetx = .ok (c', a') → hdrType b'.cur ≠ 5 → a'.data = p' := by
      intro init' p' b' c' a' prev hbuf hl hsend hcur'
      have hg : b'.getData = (0, .default) := by unfold EgBlk.getData; rw [if_neg hcur']
      unfold EgBlk.send at hsend
      dsimp only at hsend
      rw [hg] at hsend
      split at hsend
      · cases hsend
      · rw [rdN_of_le (by rw [hbuf]; simp; omega), Res.bind_ok] at hsend
        injection hsend with hsend
        injection hsend with _ h
        rw [← h, hbuf, ← hl, List.drop_zero]
        simp
    have hlen : ∀ init ∈ List.range 14, ∀ cur ∈ schemes init, 11 ≤ cur →
        blkDataLen cur false = payloadLen init false := by decide
    have hht : ∀ cs ∈ [11, 12, 13], hdrType cs ≠ 5 := by decide
    refine ⟨c, c2, { cs := b.cur, padded := false, cps := radioCps b.cur false [a, a2], areas := [a, a2] }, v, ?_, ?_, ?_, ?_⟩
    · unfold txPair
      rw [hinfo, Res.bind_ok]
      dsimp only
      rw [hspb, s1, Res.bind_ok]
      dsimp only
      rw [hcur] at t1
      rw [t1, Res.bind_ok]
    · exact hv1
    · exact hv2
    · have e1 := hdata (init' := init) (prev := none) h2.buf (by rw [hp]; exact (hlen init hr _ h2.cur h11).symm) s1
        (hht _ hc3)
      rw [hcur] at t1
      have e2 := hdata (init' := init2) (prev := none) k2.buf
        (by rw [hp2]; rw [← hcur]; exact (hlen init2 hr2 _ k2.cur (by rw [hcur]; exact h11)).symm) t1
        (by rw [hcur]; exact hht _ hc3)
      simp [e1, e2]

/-- An MCS-9 block sent with another one, then alone (MCS-6), then, MCS-3 being commanded, in two halves. -/
example : ((EgBlk.new 13 (List.replicate 74 7)).run [.pairSame, .again 10 false, .again 7 true, .again 7 true]).bind
      (fun x => .ok (x.2.map fun a => (a.cs, a.spb, a.ps, a.data.length))) =
    .ok [(13, .noRetx, 0, 74), (10, .noRetx, 1, 74), (7, .first6, 0, 37), (7, .second, 0, 37)] := by decide +kernel

/-! ## C138: length indicators of EGPRS -/

theorem eg_step {mem : Octets} {len : Nat} {isLast : Bool} {size f offs o l e : Nat} {acc : List Chunk}
    (hgt : ¬ offs > len) (hrd : rd mem offs = .ok o) (hl : o / 2 = l) (he : o % 2 = e) :
    parseEgprsLoop mem len isLast size (f + 1) offs acc =
      (if acc.length = size then .err .enospc
      else if l = 127 ∧ e = 1 ∧ ¬ (l = 0 ∧ acc.length = 0) then .ok (offs + 1, acc)
      else if l = 0 ∧ acc.length ≠ 0 then .err .einval
      else if e = 1 then
        if (acc ++ [({ length := l, complete := true } : Chunk)]).length = size then .err .enospc
        else .ok (offs + 1, acc ++ [{ length := l, complete := true }] ++ [{ length := lengthToEnd, complete := isLast }])
      else parseEgprsLoop mem len isLast size f (offs + 1) (acc ++ [{ length := l, complete := true }])) := by
  subst hl he
  rw [parseEgprsLoop, if_neg hgt, hrd]
  rfl

theorem readEgprs_small : ∀ (d : Octets) {first : Bool} {ls : List Nat} {more : Bool} {rest : Octets},
    readLisEgprs first d = some (ls, more, rest) → ∀ l ∈ ls, l < 128 := by
  intro d
  induction d with
  | nil => intro first ls more rest h; simp [readLisEgprs] at h
  | cons o d ih =>
    intro first ls more rest h
    have ho : o.toNat < 256 := o.toNat_lt
    simp only [readLisEgprs] at h
    split at h
    · injection h with h; injection h with h1 h2; subst h1; simp
    · split at h
      · cases h
      · split at h
        · injection h with h; injection h with h1 h2; subst h1
          intro l hl; simp at hl; omega
        · simp only [Option.map_eq_some_iff] at h
          obtain ⟨⟨a, b, c⟩, h1, h2⟩ := h
          injection h2 with h2 h3
          subst h2
          intro l hl
          rcases List.mem_cons.1 hl with hl | hl
          · omega
          · exact ih h1 l hl

theorem parseEgprs_spec (data : Octets) (isLast : Bool) (size : Nat) (hlen : size < data.length) :
    ∀ (f : Nat) (acc : List Chunk), acc.length + f = size + 1 → 0 < f →
    match readLisEgprs (decide (acc.length = 0)) (data.drop acc.length) with
    | none => ∃ er, parseEgprsLoop data data.length isLast size f acc.length acc = .err er
    | some (ls, more, rest) =>
      (acc.length + (raw isLast ls more).length ≤ size ∧
        (∃ o, parseEgprsLoop data data.length isLast size f acc.length acc = .ok (o, acc ++ raw isLast ls more) ∧
          rest = data.drop o ∧ o ≤ data.length)) ∨
      (size ≤ acc.length + (raw isLast ls more).length ∧
        parseEgprsLoop data data.length isLast size f acc.length acc = .err .enospc) := by
  intro f
  induction f with
  | zero => intro acc _ h; omega
  | succ f ih =>
    intro acc hf _
    have hin : acc.length < data.length := by omega
    obtain ⟨o, ho⟩ : ∃ o, data[acc.length]? = some o := ⟨_, List.getElem?_eq_getElem hin⟩
    have hdrop : data.drop acc.length = o :: data.drop (acc.length + 1) := by
      rw [List.drop_eq_getElem_cons hin]
      rw [List.getElem?_eq_getElem hin] at ho
      injection ho with ho
      rw [ho]
    have hrd : rd data acc.length = .ok o.toNat := by
      simp [rd, ho]
    have hgt : ¬ acc.length > data.length := by omega
    rw [hdrop]
    obtain ⟨l, hl0⟩ : ∃ l, o.toNat / 2 = l := ⟨_, rfl⟩
    obtain ⟨e, he0⟩ : ∃ e, o.toNat % 2 = e := ⟨_, rfl⟩
    have hP := @eg_step data data.length isLast size f acc.length o.toNat l e acc hgt hrd hl0 he0
    have heb : e = 0 ∨ e = 1 := by omega
    rw [hP]
    simp only [readLisEgprs, hl0, he0]
    clear hP hl0 he0 ho hrd hdrop
    have hne : l = 127 ∧ e = 1 ∧ ¬ (l = 0 ∧ acc.length = 0) ↔ l = 127 ∧ e = 1 := by omega
    simp only [hne]
    by_cases hfill : l = 127 ∧ e = 1
    · simp only [hfill, and_self, if_true]
      by_cases hs : acc.length = size
      · right; simp [hs]
      · left
        refine ⟨by simp [raw]; omega, acc.length + 1, ?_, rfl, by omega⟩
        rw [if_neg hs]
        simp [raw]
    · simp only [hfill, if_false]
      by_cases hz : l = 0 ∧ acc.length ≠ 0
      · have : l = 0 ∧ ¬ (decide (acc.length = 0) = true) := by simpa using hz
        rw [if_pos this]
        dsimp only
        by_cases hs : acc.length = size
        · rw [if_pos hs]; exact ⟨_, rfl⟩
        · rw [if_neg hs, if_pos hz]; exact ⟨_, rfl⟩
      · have : ¬ (l = 0 ∧ ¬ (decide (acc.length = 0) = true)) := by simpa using hz
        rw [if_neg this]
        rcases heb with rfl | rfl
        · -- another indicator follows
          simp only [Nat.zero_ne_one, if_false]
          by_cases hs : acc.length = size
          · rcases hr : readLisEgprs false (data.drop (acc.length + 1)) with _ | ⟨ls, more, rest⟩
            · simp only [Option.map_none]; rw [if_pos hs]; exact ⟨_, rfl⟩
            · simp only [Option.map_some]; right
              exact ⟨by omega, by rw [if_pos hs]⟩
          · simp only [hs, hz, if_false]
            have := ih (acc ++ [{ length := l, complete := true }]) (by simp; omega) (by omega)
            simp only [List.length_append, List.length_singleton] at this
            rw [show decide (acc.length + 1 = 0) = false by simp] at this
            revert this
            rcases hr : readLisEgprs false (data.drop (acc.length + 1)) with _ | ⟨ls, more, rest⟩
            · simp only [Option.map_none]; exact id
            · simp only [Option.map_some]
              have hrl : acc.length + (raw isLast (l :: ls) more).length =
                  acc.length + 1 + (raw isLast ls more).length := by simp [raw]; omega
              rw [hrl]
              rintro (⟨h1, o', h2, h3, h4⟩ | h1)
              · left
                refine ⟨h1, o', ?_, h3, h4⟩
                rw [h2]; simp [raw]
              · exact .inr h1
        · simp only [if_true]
          have hraw : raw isLast [l] true =
            [{ length := l, complete := true }, { length := lengthToEnd, complete := isLast }] := rfl
          rw [hraw]
          simp only [List.length_cons, List.length_nil, List.length_append]
          by_cases hs : acc.length = size
          · right; exact ⟨by omega, by rw [if_pos hs]⟩
          · by_cases hs2 : acc.length + 1 = size
            · right; exact ⟨by omega, by rw [if_neg hs, if_neg hz, if_pos (by omega)]⟩
            · left
              refine ⟨by omega, acc.length + 1, ?_, rfl, by omega⟩
              rw [if_neg hs, if_neg hz, if_neg (by omega)]
              simp

/-- C138: for every EGPRS payload (they have 22 to 74 octets; anything from 17 octets on will do) the parser reads nothing
outside the payload; the chunks it reports lie one behind the other inside the payload, and are exactly the pieces of
LLC PDUs the standard defines.  Only blocks with malformed length indicators, or with 15 or more pieces, are rejected. -/
theorem c138_parser_exact (e isLast : Bool) (data : Octets) (hlen : 17 ≤ data.length) :
    match fromDlDataEgprs e isLast data data.length 16 with
    | .ub _ => False
    | .err _ => piecesEgprs e isLast data = none ∨ ∃ ps, piecesEgprs e isLast data = some ps ∧ 15 ≤ ps.length
    | .ok cs => (∃ start, Tiles data.length start cs) ∧ piecesEgprs e isLast data = some (cs.map (content data)) := by
  unfold fromDlDataEgprs
  cases e with
  | true =>
    simp only [if_true, Res.bind_ok]
    have h := layout_spec data isLast true [] 0 (by simp) (by omega)
    have hraw : raw isLast [] true = [{ length := lengthToEnd, complete := isLast }] := rfl
    rw [hraw] at h
    simp only [cut] at h
    obtain ⟨cs, h1, h2, h3⟩ := h
    rw [h1]
    refine ⟨⟨0, h2⟩, ?_⟩
    simp only [piecesEgprs, if_true, cut]
    rw [h3]
    simp
  | false =>
    simp only [Bool.false_eq_true, if_false, piecesEgprs]
    have h := parseEgprs_spec data isLast 16 (by omega) 17 [] (by simp) (by omega)
    simp only [List.length_nil, List.drop_zero, Nat.zero_add, List.nil_append, decide_true] at h
    revert h
    rcases hr : readLisEgprs true data with _ | ⟨ls, more, rest⟩
    · rintro ⟨er, h⟩
      simp [h]
    · simp only [Option.bind_some]
      have hls := readEgprs_small data hr
      rintro (⟨hk, o, h1, h2, h3⟩ | ⟨hk, h1⟩)
      · subst h2
        simp only [h1, Res.bind_ok]
        have h := layout_spec data isLast more ls o (fun l hl => by have := hls l hl; omega) h3
        revert h
        rcases hc : cut isLast more ls (data.drop o) with _ | ps
        · intro h; simp [h]
        · rintro ⟨cs, g1, g2, g3⟩
          rw [g1]
          exact ⟨⟨o, g2⟩, by rw [g3]⟩
      · simp only [h1, Res.bind_err]
        rcases hc : cut isLast more ls rest with _ | ps
        · exact Or.inl rfl
        · refine Or.inr ⟨ps, rfl, ?_⟩
          have : ∀ (ls : List Nat) (d : Octets) (ps : List Piece), cut isLast more ls d = some ps → ls.length ≤ ps.length := by
            intro ls
            induction ls with
            | nil => intro d ps _; simp
            | cons l ls ih =>
              intro d ps h
              simp only [cut] at h
              split at h
              · simp only [Option.map_eq_some_iff] at h
                obtain ⟨a, h1, h2⟩ := h
                have := ih _ _ h1
                rw [← h2]
                simp; omega
              · cases h
          have := this ls rest ps hc
          have hr : (raw isLast ls more).length ≤ ls.length + 1 := by
            simp [raw]; split <;> simp
          omega

/-- An MCS-1 payload: the rest of a PDU (3 octets), a whole one (4 octets), filling octets. -/
example : fromDlDataEgprs false false ([0x06, 0x08, 0xff, 1, 2, 3, 4, 5, 6, 7] ++ List.replicate 12 0x2b) 22 16 =
    .ok [{ offset := 3, length := 3, complete := true }, { offset := 6, length := 4, complete := true }] := by
  decide +kernel

/-! ## C139: puncturing schemes -/

/-- C139, as one would like to have it: whenever a block is sent again (not: the second half after the first), its
puncturing scheme is the one the standard prescribes after the previous transmission. -/
def C139Statement : Prop := ∀ (init : Nat) (p : Octets) (es : List BlkEv), 5 ≤ init ∧ init ≤ 13 →
  p.length = payloadLen init false → Commanded es → ∀ b as, (EgBlk.new init p).run es = .ok (b, as) →
  ∀ l a a' r, as = l ++ a :: a' :: r → a'.spb ≠ .second → a'.ps = nextPunct a.cs a.ps a'.cs

/-- It is not so: the standard prescribes the scheme after a change between MCS-9 and MCS-6 by the scheme last used; the
code looks at the one that would come next.  A block sent with MCS-9 and P1, together with another one, goes out with
MCS-6 and P2 when MCS-6 is commanded, instead of P1. -/
theorem c139_violated : ¬ C139Statement := by
  intro h
  have := h 13 (List.replicate 74 0) [.pairSame, .again 10 false] (by omega) (by decide +kernel)
    (by intro e he; simp only [List.mem_cons, List.not_mem_nil, or_false] at he; rcases he with rfl | rfl <;> simp [BlkEv.valid])
    _ _ (by decide +kernel : _ = Res.ok ({ EgBlk.new 13 (List.replicate 74 0) with last := 10, cur := 10 },
      [⟨13, .noRetx, 0, List.replicate 74 0⟩, ⟨10, .noRetx, 1, List.replicate 74 0⟩])) [] _ _ [] rfl (by decide)
  exact absurd this (by decide)

/-- C139, except for changes between MCS-6 and MCS-9: the puncturing schemes are used in cyclic order as long as the
coding scheme stays, and start as the standard says when it changes. -/
theorem c139_partial (init : Nat) (p : Octets) (es : List BlkEv) (hi : 5 ≤ init ∧ init ≤ 13)
    (hp : p.length = payloadLen init false) (hes : Commanded es) (b : EgBlk) (as : List Area)
    (hrun : (EgBlk.new init p).run es = .ok (b, as)) (l : List Area) (a a' : Area) (r : List Area)
    (has : as = l ++ a :: a' :: r) (hsec : a'.spb ≠ .second) (h1 : ¬ (a.cs = 13 ∧ a'.cs = 10))
    (h2 : ¬ (a.cs = 10 ∧ a'.cs = 13)) : a'.ps = nextPunct a.cs a.ps a'.cs := by
  have hm : init ∈ [5, 6, 7, 8, 9, 10, 11, 12, 13] := by
    simp only [List.mem_cons, List.not_mem_nil, or_false]; omega
  obtain ⟨b', as', k1, k2, k3⟩ := run_inv (NR := False) hm hp es (new_inv False hm) hes (fun h => h.elim)
  rw [hrun] at k1
  injection k1 with k1
  injection k1 with _ k1
  subst k1
  rw [has, show l ++ a :: a' :: r = (l ++ [a]) ++ a' :: r by simp] at k3
  have := (Chain.split (l ++ [a]) k3).2.1
  rw [lastOf_append] at this
  exact this a rfl hsec h1 h2

/-- MCS-7 in a shared block, MCS-5 alone, in halves with MCS-2, whole again. -/
example : ((EgBlk.new 11 (List.replicate 56 7)).run
      [.pairSame, .again 9 true, .again 9 true, .again 6 true, .again 6 true, .again 9 true]).bind
      (fun x => .ok (x.2.map fun a => (a.cs, a.spb, a.ps))) =
    .ok [(11, .noRetx, 0), (9, .noRetx, 0), (9, .noRetx, 1), (6, .first6, 0), (6, .second, 0), (9, .noRetx, 0)] := by
  decide +kernel

/-! ## C140: resegmentation -/

/-- Every transmission of a block carries its whole payload, or its first half, or its second half right after the first,
with the same coding and puncturing scheme (that of half the size), and says so. -/
def HalvesInOrder (p : Octets) (init : Nat) (as : List Area) : Prop :=
  ∀ l a r, as = l ++ a :: r →
    (a.spb = .noRetx ∧ a.data = p) ∨
    ((a.spb = .first10 ∨ a.spb = .first6) ∧ halfScheme init = some a.cs ∧ a.data = p.take (p.length / 2)) ∨
    (a.spb = .second ∧ halfScheme init = some a.cs ∧ a.data = p.drop (p.length / 2) ∧
      ∃ l' b, l = l' ++ [b] ∧ (b.spb = .first10 ∨ b.spb = .first6) ∧ b.data = p.take (p.length / 2) ∧
        b.cs = a.cs ∧ b.ps = a.ps)

/-- C140, as one would like to have it. -/
def C140Statement : Prop := ∀ (init : Nat) (p : Octets) (es : List BlkEv), 5 ≤ init ∧ init ≤ 13 →
  p.length = payloadLen init false → Commanded es →
  ∃ b as, (EgBlk.new init p).run es = .ok (b, as) ∧ HalvesInOrder p init as

/-- It is not so: after the first half of an MCS-4 block was sent with MCS-1, the network commands MCS-4; the block is
then sent, as "second half" with MCS-4, as its last 22 octets followed by 22 octets that are no data. -/
theorem c140_violated : ¬ C140Statement := by
  intro h
  obtain ⟨b, as, h1, h2⟩ := h 8 (List.replicate 44 7) [.same, .again 5 true, .again 8 true] (by omega)
    (by decide +kernel)
    (by intro e he; simp only [List.mem_cons, List.not_mem_nil, or_false] at he; rcases he with rfl | rfl | rfl <;> simp [BlkEv.valid])
  have hr : (EgBlk.new 8 (List.replicate 44 7)).run [.same, .again 5 true, .again 8 true] =
      .ok ({ EgBlk.new 8 (List.replicate 44 7) with ps := 1, seg := .secondSent },
        [⟨8, .noRetx, 0, List.replicate 44 7⟩, ⟨5, .first10, 0, List.replicate 22 7⟩,
         ⟨8, .second, 0, List.replicate 22 7 ++ List.replicate 22 0⟩]) := by decide +kernel
  rw [hr] at h1
  injection h1 with h1
  injection h1 with _ h1
  subst h1
  rcases h2 [_, _] _ [] rfl with h | h | h
  · exact absurd h.1 (by decide)
  · rcases h.1 with h | h <;> exact absurd h (by decide)
  · exact absurd h.2.1 (by decide)

/-- C140, except for MCS-4 blocks with resegmentation (incremental redundancy off). -/
theorem c140_partial (init : Nat) (p : Octets) (es : List BlkEv) (hi : 5 ≤ init ∧ init ≤ 13)
    (hp : p.length = payloadLen init false) (hes : Commanded es)
    (h : init ≠ 8 ∨ ∀ e ∈ es, e.whole) :
    ∃ b as, (EgBlk.new init p).run es = .ok (b, as) ∧ HalvesInOrder p init as := by
  have hm : init ∈ [5, 6, 7, 8, 9, 10, 11, 12, 13] := by
    simp only [List.mem_cons, List.not_mem_nil, or_false]; omega
  obtain ⟨b, as, h1, h2, h3⟩ := run_inv (NR := ∀ e ∈ es, e.whole) hm hp es (new_inv _ hm) hes (fun h => h)
  refine ⟨b, as, h1, ?_⟩
  intro l a r has
  rw [has] at h3
  rcases (Chain.split l h3).1 h.symm with g | g | ⟨g, x, hx, gx, gc, gp⟩
  · exact .inl g
  · exact .inr (.inl g)
  · obtain ⟨l', hl'⟩ := lastOf_some hx
    exact .inr (.inr ⟨g.1, g.2.1, g.2.2, l', x, hl', gx.1, gx.2.2, gc, gp⟩)

/-- An MCS-6 block in halves, twice, and whole in between. -/
example : ((EgBlk.new 10 (List.replicate 37 1 ++ List.replicate 37 2)).run
      [.same, .again 5 true, .again 5 true, .again 10 true, .again 7 true, .again 7 true]).bind
      (fun x => .ok (x.2.map fun a => (a.cs, a.spb, a.data.length, a.data.headD 0))) =
    .ok [(10, .noRetx, 74, 1), (7, .first6, 37, 1), (7, .second, 37, 2), (10, .noRetx, 74, 1), (7, .first6, 37, 1),
      (7, .second, 37, 2)] := by decide +kernel

end Verif.Props
