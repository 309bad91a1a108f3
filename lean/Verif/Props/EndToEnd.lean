import Verif.Spec.EndToEnd
import Verif.Props.RlcDelivery
import Verif.Props.RlcSegment

/-!
# C143, C144: N-PDUs through the whole stack
-/
namespace Verif.Props

open Verif Verif.Spec Verif.Spec.Sndcp

/-! ## LLC and SNDCP -/

/-- The frames LLC makes of consecutive requests (proof device). -/
def uiFrames (cr : Bool) (s vu : Nat) : List Octets → List Octets
  | [] => []
  | d :: ds => uiFrame cr s vu d :: uiFrames cr s ((vu + 1) % 512) ds

theorem uiFrames_take (cr : Bool) (s : Nat) : ∀ (ds : List Octets) (vu k : Nat),
    uiFrames cr s vu (ds.take k) = (uiFrames cr s vu ds).take k
  | [], vu, k => by simp [uiFrames]
  | d :: ds, vu, 0 => by simp [uiFrames]
  | d :: ds, vu, k + 1 => by simp [uiFrames, uiFrames_take]

theorem uiFrames_length (cr : Bool) (s : Nat) : ∀ (ds : List Octets) (vu : Nat),
    (uiFrames cr s vu ds).length = ds.length
  | [], _ => rfl
  | d :: ds, vu => by simp [uiFrames, uiFrames_length]

theorem llc_send (s prio t : Nat) (hs : s < 16) : ∀ (datas : List Octets) (cs : Llc.Ctx) (i : Nat) (ms : Llc.Llme),
    cs.find t = some i → cs.llmes[i]? = some ms → (ms.lle s).sapi = s → ms.suspended = false →
    (ms.lle s).vuSend < 512 → (∀ d ∈ datas, d.length ≤ (ms.lle s).params.n201u) →
    framesOf (cs.run (datas.map (Llc.Op.unitdataReq t s prio))).2 =
        uiFrames (Llc.encodeCr cs.loc false) s (ms.lle s).vuSend datas ∧
      ∀ a ∈ answers cs (datas.map (Llc.Op.unitdataReq t s prio)), a = .ok () := by
  intro datas
  induction datas with
  | nil => intros; exact ⟨rfl, by simp [answers]⟩
  | cons d ds ih =>
    intro cs i ms h1 h2 h5 h6 h7 h10
    have hns : ¬ s ≥ 16 := by omega
    have d1 := h10 d (by simp)
    have hi := (List.getElem?_eq_some_iff.1 h2).1
    obtain ⟨ls, hls⟩ : ∃ l, l = (ms.lle s).txUi cs.loc ms.tlli prio d := ⟨_, rfl⟩
    have htx : ls.out = [.down (cs.loc == .sgsn) ms.tlli s prio
        (uiFrame (Llc.encodeCr cs.loc false) s (ms.lle s).vuSend d)] ∧
        ls.lle.vuSend = ((ms.lle s).vuSend + 1) % 512 ∧ ls.lle.params = (ms.lle s).params ∧
        ls.lle.sapi = s ∧ ls.rc = .ok () := by
      rw [hls]
      unfold Llc.Lle.txUi
      rw [if_neg (by omega), Llc.encode_ui _ _ _ _ (by omega) h7, h5]
      exact ⟨rfl, rfl, rfl, rfl, rfl⟩
    have hstep : cs.step (.unitdataReq t s prio d) =
        { ctx := { cs with llmes := cs.llmes.set i (ms.setLle s ls.lle) }, out := ls.out, rc := ls.rc } := by
      simp [Llc.Ctx.step, Llc.Ctx.unitdataReq, h1, Llc.Ctx.onLle, hns, h2, h6, hls]
    obtain ⟨a1, a2⟩ := ih { cs with llmes := cs.llmes.set i (ms.setLle s ls.lle) } i (ms.setLle s ls.lle)
      (by rw [find_setLle _ _ _ _ _ h2]; exact h1) (by simp [hi])
      (by simp [Llc.Llme.setLle, htx.2.2.2.1]) h6
      (by simp only [Llc.Llme.setLle, if_true, htx.2.1]; omega)
      (fun x hx => by
        simp only [Llc.Llme.setLle, if_true]
        rw [htx.2.2.1]
        exact h10 x (by simp [hx]))
    simp only [Llc.Llme.setLle, if_true, htx.2.1] at a1
    constructor
    · simp only [List.map_cons, Llc.Ctx.run, hstep, htx.1, uiFrames]
      rw [← a1]
      simp [framesOf, Llc.Llme.setLle]
    · simp only [List.map_cons, answers, hstep, List.mem_cons]
      rintro a (rfl | ha)
      · exact htx.2.2.2.2
      · exact a2 a ha

/-- LLC at both ends: every request is accepted, and the frames handed up, if they are the first `k` of those sent,
become the first `k` indications. -/
theorem llc_path {p : Path} (hr : p.Ready) (segs : List Octets)
    (hseg : ∀ d ∈ segs, 0 < d.length ∧ d.length ≤ p.tx.n201u) :
    (∀ a ∈ answers p.llcTx (p.requests segs), a = .ok ()) ∧
    (framesOf (p.llcTx.run (p.requests segs)).2).length = segs.length ∧
    (∀ f ∈ framesOf (p.llcTx.run (p.requests segs)).2, f ≠ []) ∧
    ∀ k, indications p.sapi (p.llcRx.run (((framesOf (p.llcTx.run (p.requests segs)).2).take k).map
      (Llc.Op.rxPdu p.tlli))).2 = segs.take k := by
  obtain ⟨i, j, ms, mr, h1, h2, h3, h4, h5, h6, h7, h8, h9, h10⟩ := hr.ends
  have hs16 : p.sapi < 16 := by rcases hr.sapi with h | h | h | h | h <;> omega
  have hle : ∀ d ∈ segs, d.length ≤ (ms.lle p.sapi).params.n201u := fun d hd => (hseg d hd).2.trans h10
  obtain ⟨a1, a2⟩ := llc_send p.sapi p.prio p.tlli hs16 segs p.llcTx i ms h1 h2 h5 h6 h7 hle
  refine ⟨a2, by rw [Path.requests, a1, uiFrames_length], ?_, ?_⟩
  · rw [Path.requests, a1]
    have : ∀ (ds : List Octets) vu, ∀ f ∈ uiFrames (Llc.encodeCr p.llcTx.loc false) p.sapi vu ds, f ≠ [] := by
      intro ds
      induction ds with
      | nil => intro vu f hf; simp [uiFrames] at hf
      | cons d ds ih =>
        intro vu f hf
        simp only [uiFrames, List.mem_cons] at hf
        rcases hf with rfl | hf
        · simp [uiFrame]
        · exact ih _ f hf
    exact this _ _
  · intro k
    have hk := (llc_send p.sapi p.prio p.tlli hs16 (segs.take k) p.llcTx i ms h1 h2 h5 h6 h7
      (fun d hd => hle d (List.mem_of_mem_take hd))).1
    have hc := c57_inorder_delivery p.sapi p.prio hr.sapi p.tlli hr.tlli (segs.take k) p.llcTx p.llcRx i j ms mr
      h1 h2 h3 h4 h5 h6 h7 h8 h9
      (fun d hd => ⟨(hseg d (List.mem_of_mem_take hd)).1, hle d (List.mem_of_mem_take hd)⟩)
    rw [hk, uiFrames_take, ← a1] at hc
    rw [Path.requests, hc]
    have : ∀ l : List Octets, indications p.sapi (l.map (Llc.Out.unitdataInd mr.tlli p.sapi)) = l := by
      intro l
      induction l with
      | nil => rfl
      | cons a l ih =>
        simp only [indications, List.map_cons, List.filterMap_cons, if_true] at ih ⊢
        rw [ih]
    exact this _

/-- A receiver that has got through all of a stream has got through any beginning of it. -/
theorem rxRun_prefix : ∀ (xs ys : List Octets) (s s2 : Sndcp.Defrag) (ds : List Octets),
    Sndcp.rxRun s (xs ++ ys) = .ok (s2, ds) → ∃ s1 ds1, Sndcp.rxRun s xs = .ok (s1, ds1) ∧ ds1 <+: ds
  | [], ys, s, s2, ds, _ => ⟨s, [], rfl, List.nil_prefix⟩
  | x :: xs, ys, s, s2, ds, h => by
    rw [List.cons_append, Sndcp.rxRun] at h
    rw [Sndcp.rxRun]
    cases hr : Sndcp.llUnitdataInd s x with
    | err e => rw [hr] at h; cases h
    | ub f => rw [hr] at h; cases h
    | ok y =>
      obtain ⟨t, o⟩ := y
      rw [hr] at h
      simp only at h ⊢
      cases hs : Sndcp.rxRun t (xs ++ ys) with
      | err e => rw [hs] at h; cases h
      | ub f => rw [hs] at h; cases h
      | ok z =>
        obtain ⟨t2, es⟩ := z
        rw [hs] at h
        simp only [Res.ok.injEq, Prod.mk.injEq] at h
        obtain ⟨rfl, rfl⟩ := h
        obtain ⟨t1, es1, g1, g2⟩ := rxRun_prefix xs ys t t2 es hs
        rw [g1]
        refine ⟨_, _, rfl, ?_⟩
        cases o with
        | deliver d => exact List.prefix_cons_inj d |>.2 g2
        | quiet => exact g2
        | error e => exact g2

/-- Sending any N-PDUs of the standard (proof device). -/
theorem sendAll_ok : ∀ (ns : List Octets) (e : Sndcp.TxEnt), N201uRange e.n201u → e.nsapi < 16 → e.txNpdu < 4096 →
    Npdus ns → ∃ sent, sendAll e ns = .ok sent ∧ (∀ ps ∈ sent, ∃ q qs, ps = q :: qs) ∧
      ∀ d ∈ sent.flatten, 0 < d.length ∧ d.length ≤ e.n201u
  | [], e, _, _, _, _ => ⟨[], rfl, by simp, by simp⟩
  | n :: ns, e, hr, hn, ht, hall => by
    obtain ⟨hne, hl⟩ := hall n List.mem_cons_self
    obtain ⟨r1, r2⟩ := hr
    have hreq := unitdataReq_all (e := e) (by omega) (by omega) hn ht hne (by omega)
    have hseg := txRecs_segmentation (e := e) (npdu := n) (by omega) (by omega) hn ht (by omega)
    obtain ⟨sent, h1, h2, h3⟩ := sendAll_ok ns { e with txNpdu := (e.txNpdu + 1) % 4095 } ⟨r1, r2⟩ hn
      (by simp only; omega) (fun m hm => hall m (List.mem_cons_of_mem _ hm))
    refine ⟨(txRecs e n).map SnPdu.encode :: sent, ?_, ?_, ?_⟩
    · rw [sendAll, hreq]
      simp only
      rw [h1]
    · intro ps hps
      rcases List.mem_cons.1 hps with rfl | hps
      · cases hx : txRecs e n with
        | nil => exact absurd hx hseg.nonempty
        | cons q qs => exact ⟨_, _, rfl⟩
      · exact h2 ps hps
    · intro d hd
      rw [List.flatten_cons, List.mem_append] at hd
      rcases hd with hd | hd
      · obtain ⟨q, hq, rfl⟩ := List.mem_map.1 hd
        exact ⟨by rw [Sndcp.encode_length]; split <;> omega, hseg.fits q hq⟩
      · exact h3 d hd

/-- LLC and SNDCP at both ends: the frames handed up, if they are the first `k` of those sent, become the first N-PDUs,
and all of them if they are all. -/
theorem upper_path {p : Path} (hr : p.Ready) {ns : List Octets} (hns : Npdus ns) :
    ∃ frames, p.send ns = .ok frames ∧ (∀ f ∈ frames, f ≠ []) ∧ p.receive frames = .ok ns ∧
      ∀ k, ∃ got, p.receive (frames.take k) = .ok got ∧ got <+: ns := by
  obtain ⟨sent, h1, h2, h3⟩ := sendAll_ok ns p.tx hr.n201u hr.nsapi hr.num hns
  obtain ⟨a1, a2, a3, a4⟩ := llc_path hr sent.flatten h3
  have hpt : Pointwise FirstThenAny sent sent := by
    clear h1 h3 a1 a2 a3 a4
    induction sent with
    | nil => exact .nil
    | cons ps sent ih =>
      obtain ⟨q, qs, rfl⟩ := h2 ps List.mem_cons_self
      exact .cons ⟨q, qs, qs, rfl, rfl, List.Perm.refl _⟩ (ih fun ps hp => h2 ps (List.mem_cons_of_mem _ hp))
  obtain ⟨r1, r2⟩ := hr.n201u
  obtain ⟨s', hs'⟩ := c42_stream_partial ns p.tx sent sent p.rx (by omega) (by omega) hr.nsapi hr.num
    (fun n hn => ⟨(hns n hn).1, by have := (hns n hn).2; omega, by have := (hns n hn).2; omega⟩) h1 hpt
  refine ⟨_, ?_, a3, ?_, ?_⟩
  · simp only [Path.send, h1, Res.bind_ok]
    rw [if_pos a1]
  · have := a4 (framesOf (p.llcTx.run (p.requests sent.flatten)).2).length
    rw [List.take_length, a2, List.take_length] at this
    simp only [Path.receive, this, hs', Res.bind_ok]
  · intro k
    have hk := a4 k
    obtain ⟨s1, ds1, g1, g2⟩ := rxRun_prefix (sent.flatten.take k) (sent.flatten.drop k) p.rx s' ns
      (by rw [List.take_append_drop]; exact hs')
    exact ⟨ds1, by simp only [Path.receive, hk, g1, Res.bind_ok], g2⟩

/-! ## C143: downlink -/

/-- A downlink TBF: the network's blocks by number, how many of them there are, and the numbers of the blocks that
reach the mobile station, in the order in which they do: lost blocks are sent again, and blocks may be received out of
order and more than once. -/
structure DlTransfer where
  blk : Nat → Rlc.Block
  count : Nat
  arrivals : List Nat

/-- The frames the network puts into the blocks of a TBF. -/
def DlTransfer.frames (t : DlTransfer) : List Octets := framesUpTo t.blk t.count

/-- All the blocks, and no others, reach the mobile station sooner or later, and the network keeps to the window. -/
structure DlTransfer.Complete (t : DlTransfer) : Prop where
  proper : ProperSender t.blk
  all : ∀ n, n ∈ t.arrivals ↔ n < t.count
  window : RespectsWindow t.arrivals

/-- The frames the mobile station's RLC/MAC hands up in the course of downlink TBFs one after the other. -/
def handedUpAll : List DlTransfer → Res (List Octets)
  | [] => .ok []
  | t :: ts => do
    let r ← Rlc.DlTbf.init.run (wire t.blk t.arrivals)
    let up ← handedUpAll ts
    .ok (handedUp r.2 ++ up)

/-- C143: N-PDUs sent to the mobile station over any number of downlink TBFs, with any losses made good by
retransmission, are delivered exactly once, unchanged and in order. -/
def C143Statement : Prop :=
  ∀ (p : Path) (ns : List Octets), p.Ready → Npdus ns → ∃ frames, p.send ns = .ok frames ∧
    ∀ ts : List DlTransfer, (∀ t ∈ ts, t.Complete) → ts.flatMap DlTransfer.frames = frames →
      ∃ up, handedUpAll ts = .ok up ∧ p.receive up = .ok ns

theorem DlTransfer.Complete.lowest {t : DlTransfer} (h : t.Complete) : LowestMissing t.arrivals t.count :=
  ⟨fun hm => absurd ((h.all _).1 hm) (Nat.lt_irrefl _), fun n hn => (h.all n).2 hn⟩

theorem handedUpAll_complete : ∀ ts : List DlTransfer, (∀ t ∈ ts, t.Complete ∧ NoLongGap t.arrivals) →
    handedUpAll ts = .ok (ts.flatMap DlTransfer.frames)
  | [], _ => rfl
  | t :: ts, h => by
    obtain ⟨h1, h2⟩ := h t List.mem_cons_self
    obtain ⟨w, os, a, b⟩ := c21_all_delivered_partial t.blk h1.proper t.arrivals h1.window h2 t.count h1.lowest
    have ih := handedUpAll_complete ts fun x hx => h x (List.mem_cons_of_mem _ hx)
    simp only [handedUpAll, a, ih, Res.bind_ok, b, List.flatMap_cons, DlTransfer.frames]

/-- C143, partial (missing: TBFs in which 63 consecutive blocks are lost before a block arrives, see C21). -/
theorem c143_partial (p : Path) (ns : List Octets) (hr : p.Ready) (hns : Npdus ns) :
    ∃ frames, p.send ns = .ok frames ∧
      ∀ ts : List DlTransfer, (∀ t ∈ ts, t.Complete ∧ NoLongGap t.arrivals) → ts.flatMap DlTransfer.frames = frames →
        ∃ up, handedUpAll ts = .ok up ∧ p.receive up = .ok ns := by
  obtain ⟨frames, h1, _, h3, _⟩ := upper_path hr hns
  refine ⟨frames, h1, fun ts ht he => ⟨_, handedUpAll_complete ts ht, ?_⟩⟩
  rw [he]
  exact h3

theorem framesUpTo_prefix (blk : Nat → Rlc.Block) {q k : Nat} (h : q ≤ k) : framesUpTo blk q <+: framesUpTo blk k := by
  obtain ⟨d, rfl⟩ := Nat.exists_eq_add_of_le h
  rw [framesUpTo, framesUpTo, piecesUpTo_add, reassemble_app]
  exact List.prefix_append _ _

/-- What has been delivered while the last TBF is still running, whatever was lost in it: a beginning of the N-PDUs,
unchanged and in order; the network goes by the acknowledgements of the mobile station. -/
theorem c143_at_any_time (p : Path) (ns : List Octets) (hr : p.Ready) (hns : Npdus ns) :
    ∃ frames, p.send ns = .ok frames ∧
      ∀ (ts : List DlTransfer) (t : DlTransfer), (∀ t ∈ ts, t.Complete ∧ NoLongGap t.arrivals) → ProperSender t.blk →
        (∀ n ∈ t.arrivals, n < t.count) → RespectsAcks t.arrivals →
        ts.flatMap DlTransfer.frames ++ t.frames = frames →
        ∃ up got, handedUpAll (ts ++ [t]) = .ok up ∧ p.receive up = .ok got ∧ got <+: ns := by
  obtain ⟨frames, h1, _, _, h4⟩ := upper_path hr hns
  refine ⟨frames, h1, fun ts t ht hp hn hw he => ?_⟩
  obtain ⟨w, os, a, b⟩ := c21_delivered_in_order t.blk hp t.arrivals hw
  have hle : dlTaken t.arrivals ≤ t.count := by
    obtain ⟨_, _, _, _, hlow⟩ := c18_no_false_ack t.arrivals hw
    by_cases h : dlTaken t.arrivals ≤ t.count
    · exact h
    · exact absurd (hn _ (hlow t.count (by omega))) (Nat.lt_irrefl _)
  have hup : handedUpAll (ts ++ [t]) = .ok (ts.flatMap DlTransfer.frames ++ framesUpTo t.blk (dlTaken t.arrivals)) := by
    clear he
    induction ts with
    | nil => simp [handedUpAll, a, b]
    | cons x ts ih =>
      obtain ⟨g1, g2⟩ := ht x List.mem_cons_self
      obtain ⟨w', os', a', b'⟩ := c21_all_delivered_partial x.blk g1.proper x.arrivals g1.window g2 x.count g1.lowest
      have := ih fun y hy => ht y (List.mem_cons_of_mem _ hy)
      simp only [List.cons_append, handedUpAll, a', this, Res.bind_ok, b', List.flatMap_cons, DlTransfer.frames,
        List.append_assoc]
  obtain ⟨d, hd⟩ := framesUpTo_prefix t.blk hle
  have htake : ts.flatMap DlTransfer.frames ++ framesUpTo t.blk (dlTaken t.arrivals) =
      frames.take (ts.flatMap DlTransfer.frames ++ framesUpTo t.blk (dlTaken t.arrivals)).length := by
    rw [← he, DlTransfer.frames, ← hd, ← List.append_assoc, List.take_left']
    rfl
  obtain ⟨got, g1, g2⟩ := h4 (ts.flatMap DlTransfer.frames ++ framesUpTo t.blk (dlTaken t.arrivals)).length
  rw [← htake] at g1
  exact ⟨_, got, hup, g1, g2⟩

/-! ### A sender with one frame of 19 octets in each block -/

/-- Blocks with the frames of a list, each of 19 octets, one in each block of 20 octets; blocks with filling after
that. -/
def oneEach (fs : List Octets) : Nat → Rlc.Block := fun n =>
  { e := false, fbi := false, data := 0x4d :: fs.getD n (List.replicate 19 0x2b) }

theorem oneEach_pieces {fs : List Octets} (hl : ∀ f ∈ fs, f.length = 19) (n : Nat) :
    blockPieces (oneEach fs n) = [(fs.getD n (List.replicate 19 0x2b), true)] := by
  have h : (fs.getD n (List.replicate 19 0x2b)).length = 19 := by
    rw [List.getD_eq_getElem?_getD]
    cases hx : fs[n]? with
    | none => rfl
    | some f => exact hl f (List.mem_of_getElem? hx)
  unfold oneEach
  generalize fs.getD n (List.replicate 19 0x2b) = f at h
  have hr : readLis (0x4d :: f) = some ([19], false, f) := by
    rw [readLis]; rfl
  simp only [blockPieces, pieces, Bool.false_eq_true, if_false, hr, Option.bind_some, List.drop_zero, cut, h]
  simp [List.take_of_length_le (Nat.le_of_eq h)]

theorem oneEach_upTo {fs : List Octets} (hl : ∀ f ∈ fs, f.length = 19) (k : Nat) :
    reassemble [] (piecesUpTo (oneEach fs) k) =
      ((List.range k).map fun n => fs.getD n (List.replicate 19 0x2b), []) := by
  induction k with
  | zero => rfl
  | succ k ih =>
    rw [piecesUpTo_add (oneEach fs) k 1, reassemble_app, ih]
    simp [List.range_succ, oneEach_pieces hl, reassemble]

theorem oneEach_frames {fs : List Octets} (hl : ∀ f ∈ fs, f.length = 19) :
    framesUpTo (oneEach fs) fs.length = fs := by
  rw [framesUpTo, oneEach_upTo hl]
  apply List.ext_getElem
  · simp
  · intro i h1 h2
    simp at h1
    simp [h1]

theorem oneEach_proper {fs : List Octets} (hl : ∀ f ∈ fs, f.length = 19) : ProperSender (oneEach fs) := by
  have h : ∀ n, (fs.getD n (List.replicate 19 0x2b)).length = 19 := by
    intro n
    rw [List.getD_eq_getElem?_getD]
    cases hx : fs[n]? with
    | none => rfl
    | some f => exact hl f (List.mem_of_getElem? hx)
  refine ⟨?_, ?_, ?_⟩
  · intro n
    simp only [oneEach, List.length_cons, h]
    omega
  · intro n; rw [oneEach_pieces hl]; simp
  · intro k
    rw [framesUpTo, oneEach_upTo hl]
    refine ⟨?_, by simp⟩
    intro f hf
    simp only [List.mem_map] at hf
    obtain ⟨n, _, rfl⟩ := hf
    rw [h]
    omega

/-- A connection on SAPI 3, NSAPI 5, with N201-U 500, as after LLGMM-ASSIGN on both sides. -/
def samplePath (up : Bool) : Path :=
  { tlli := 0xc0000001
    sapi := 3
    prio := 1
    tx := ⟨5, 500, 0⟩
    llcTx := (Llc.Ctx.init (if up then .ms else .sgsn)).alloc 0xc0000001
    llcRx := (Llc.Ctx.init (if up then .sgsn else .ms)).alloc 0xc0000001
    rx := {} }

theorem samplePath_ready (up : Bool) : (samplePath up).Ready where
  sapi := .inr (.inl rfl)
  tlli := by cases up <;> decide
  ends := by
    refine ⟨0, 0, Llc.Llme.alloc 0xc0000001, Llc.Llme.alloc 0xc0000001, ?_, ?_, ?_, ?_, ?_⟩ <;>
      cases up <;> first | rfl | decide
  n201u := ⟨by cases up <;> decide, by cases up <;> decide⟩
  nsapi := by cases up <;> decide
  num := by cases up <;> decide

/-- 64 N-PDUs of 9 octets. -/
def shortNpdus : List Octets := List.replicate 64 (List.replicate 9 7)

theorem shortNpdus_ok : Npdus shortNpdus := by
  intro n hn
  rw [List.eq_of_mem_replicate hn]
  exact ⟨by decide, by decide⟩

theorem shortNpdus_frames : ∃ fs, (samplePath false).send shortNpdus = .ok fs ∧ fs.length = 64 ∧
    (∀ f ∈ fs, f.length = 19) ∧
    (match handedUpAll [⟨oneEach fs, 64, 63 :: List.range 63⟩] with
      | .ok up => (match (samplePath false).receive up with
        | .ok got => got.length
        | _ => 0)
      | _ => 0) = 63 := by
  have h : (match (samplePath false).send shortNpdus with
      | .ok fs => decide (fs.length = 64) && fs.all (fun f => f.length = 19) &&
        (match handedUpAll [⟨oneEach fs, 64, 63 :: List.range 63⟩] with
          | .ok up => (match (samplePath false).receive up with
            | .ok got => decide (got.length = 63)
            | _ => false)
          | _ => false)
      | _ => false) = true := by decide +kernel
  cases hs : (samplePath false).send shortNpdus with
  | err e => rw [hs] at h; cases h
  | ub f => rw [hs] at h; cases h
  | ok fs =>
    rw [hs] at h
    simp only [Bool.and_eq_true, decide_eq_true_eq, List.all_eq_true] at h
    refine ⟨fs, rfl, h.1.1, h.1.2, ?_⟩
    have h2 := h.2
    revert h2
    cases handedUpAll [⟨oneEach fs, 64, 63 :: List.range 63⟩] with
    | err e => intro h; cases h
    | ub f => intro h; cases h
    | ok up =>
      simp only
      cases (samplePath false).receive up with
      | err e => intro h; cases h
      | ub f => intro h; cases h
      | ok got => simp

/-- C143 is violated: 64 N-PDUs of 9 octets in the 64 blocks of a TBF; block 63 arrives first, the others, sent again,
after that.  The last N-PDU is never delivered. -/
theorem c143_violated : ¬ C143Statement := by
  intro H
  obtain ⟨fs, h1, h2, h3, h4⟩ := shortNpdus_frames
  obtain ⟨frames, g1, g2⟩ := H (samplePath false) shortNpdus (samplePath_ready false) shortNpdus_ok
  rw [h1] at g1
  injection g1 with g1
  subst g1
  obtain ⟨up, k1, k2⟩ := g2 [⟨oneEach fs, 64, 63 :: List.range 63⟩] (by
      intro t ht
      simp only [List.mem_singleton] at ht
      subst ht
      refine ⟨oneEach_proper h3, ?_, ?_⟩
      · intro n
        simp
        omega
      · intro p n s e q hq
        have hn : n < 64 := by
          have : n ∈ 63 :: List.range 63 := by
            simp only at e
            rw [e]; simp
          simp at this; omega
        have hq64 : q ≤ 64 := by
          by_cases h : q ≤ 64
          · exact h
          · have h64 := hq.2 64 (by omega)
            have : 64 ∈ 63 :: List.range 63 := by
              simp only at e
              rw [e]; exact List.mem_append_left _ h64
            simp at this
        omega) (by
      have := oneEach_frames h3
      rw [h2] at this
      simpa [DlTransfer.frames] using this)
  rw [k1] at h4
  simp only [k2] at h4
  simp [shortNpdus] at h4

/-- The hypotheses of `c143_partial` are met: three N-PDUs, the blocks with them arriving as 1, 0, 2, 0. -/
example : ∃ fs, (samplePath false).send (List.replicate 3 (List.replicate 9 7)) = .ok fs ∧
    ∃ up, handedUpAll [⟨oneEach fs, 3, [1, 0, 2, 0]⟩] = .ok up ∧
      (samplePath false).receive up = .ok (List.replicate 3 (List.replicate 9 7)) := by
  have hn : Npdus (List.replicate 3 (List.replicate 9 7)) := by
    intro n hn
    rw [List.eq_of_mem_replicate hn]
    exact ⟨by decide, by decide⟩
  obtain ⟨fs, h1, h2⟩ := c143_partial (samplePath false) _ (samplePath_ready false) hn
  refine ⟨fs, h1, h2 _ ?_ ?_⟩
  all_goals
    have h : (match (samplePath false).send (List.replicate 3 (List.replicate 9 7)) with
      | .ok fs => decide (fs.length = 3) && fs.all (fun f => f.length = 19)
      | _ => false) = true := by decide +kernel
    rw [h1] at h
    simp only [Bool.and_eq_true, decide_eq_true_eq, List.all_eq_true] at h
  · intro t ht
    simp only [List.mem_singleton] at ht
    subst ht
    obtain ⟨a, b⟩ := small_ok (h := [1, 0, 2, 0]) (by decide)
    refine ⟨⟨oneEach_proper h.2, ?_, a⟩, b⟩
    intro n
    simp
    omega
  · have := oneEach_frames h.2
    rw [h.1] at this
    simpa [DlTransfer.frames] using this

/-! ## C144: uplink -/

/-- An uplink TBF: the frames queued at its start, those queued later, and the blocks the mobile station sends. -/
structure UlTransfer where
  queued : List Octets
  later : List Octets
  blocks : List Rlc.UlBlock

/-- What the network recovers from the blocks of uplink TBFs, one after the other (TS 44.060). -/
def recoveredAll (us : List UlTransfer) : Option (List Octets) :=
  (us.mapM fun (u : UlTransfer) => (u.blocks.mapM (fun b => pieces b.ti b.e (b.cv = 0) b.data)).map
    fun ps => (reassemble [] ps.flatten).1).map List.flatten

/-- C144: N-PDUs sent by the mobile station in any number of uplink TBFs, whose blocks all reach the network, are
delivered exactly once, unchanged and in order. -/
def C144Statement : Prop :=
  ∀ (p : Path) (ns : List Octets), p.Ready → Npdus ns → ∃ frames, p.send ns = .ok frames ∧
    ∀ us : List UlTransfer, (∀ u ∈ us, Sends (fun _ _ _ => True) u.queued u.later u.blocks) →
      us.flatMap (fun u => u.queued ++ u.later) = frames →
      ∃ up, recoveredAll us = some up ∧ p.receive up = .ok ns

/-- C144, partial (missing: TBFs whose last frame fills the rest of the last block exactly behind another frame, see
C19). -/
theorem c144_partial (p : Path) (ns : List Octets) (hr : p.Ready) (hns : Npdus ns) :
    ∃ frames, p.send ns = .ok frames ∧
      ∀ us : List UlTransfer, (∀ u ∈ us, Sends NoExactFit u.queued u.later u.blocks) →
        us.flatMap (fun u => u.queued ++ u.later) = frames →
        ∃ up, recoveredAll us = some up ∧ p.receive up = .ok ns := by
  obtain ⟨frames, h1, h2, h3, _⟩ := upper_path hr hns
  refine ⟨frames, h1, fun us hu he => ⟨frames, ?_, h3⟩⟩
  have hall : ∀ us : List UlTransfer, (∀ u ∈ us, Sends NoExactFit u.queued u.later u.blocks) →
      (∀ f ∈ us.flatMap (fun u => u.queued ++ u.later), f ≠ []) →
      recoveredAll us = some (us.flatMap fun u => u.queued ++ u.later) := by
    intro us
    induction us with
    | nil => intros; rfl
    | cons u us ih =>
      intro hu hf
      have hi := ih (fun x hx => hu x (List.mem_cons_of_mem _ hx)) (fun f hf' => hf f (by
        rw [List.flatMap_cons]; exact List.mem_append_right _ hf'))
      obtain ⟨ps, c1, c2⟩ := c19_segmentation_inverse_partial u.queued u.later u.blocks
        (fun m hm => hf m (by rw [List.flatMap_cons]; exact List.mem_append_left _ hm)) (hu u List.mem_cons_self)
      unfold recoveredAll at hi ⊢
      rw [Option.map_eq_some_iff] at hi ⊢
      obtain ⟨l, l1, l2⟩ := hi
      refine ⟨(u.queued ++ u.later) :: l, ?_, ?_⟩
      · rw [List.mapM_cons, c1]
        simp [c2, l1]
      · rw [List.flatten_cons, l2, List.flatMap_cons]
  rw [← he]
  exact hall us hu (by rw [he]; exact h2)

/-- C144 is violated: two N-PDUs of 4 and 5 octets in a TBF of one CS-2 block: their frames fill the block, and the
second N-PDU is not delivered. -/
theorem c144_violated : ¬ C144Statement := by
  intro H
  have hn : Npdus [[1, 2, 3, 4], [5, 6, 7, 8, 9]] := by
    intro n hn
    simp only [List.mem_cons, List.not_mem_nil, or_false] at hn
    rcases hn with rfl | rfl <;> exact ⟨by decide, by decide⟩
  obtain ⟨frames, g1, g2⟩ := H (samplePath true) _ (samplePath_ready true) hn
  have h : (match (samplePath true).send [[1, 2, 3, 4], [5, 6, 7, 8, 9]] with
      | .ok fs => (match Rlc.createBlock 30 0 none fs with
        | .ok (b, []) => (match recoveredAll [⟨fs, [], [b]⟩] with
          | some up => (match (samplePath true).receive up with
            | .ok got => decide (got = [[1, 2, 3, 4]])
            | _ => false)
          | none => false)
        | _ => false)
      | _ => false) = true := by decide +kernel
  rw [g1] at h
  simp only at h
  cases hb : Rlc.createBlock 30 0 none frames with
  | err e => rw [hb] at h; cases h
  | ub f => rw [hb] at h; cases h
  | ok x =>
    obtain ⟨b, q⟩ := x
    rw [hb] at h
    cases q with
    | cons _ _ => cases h
    | nil =>
      obtain ⟨up, k1, k2⟩ := g2 [⟨frames, [], [b]⟩] (by
        intro u hu
        simp only [List.mem_singleton] at hu
        subst hu
        exact .last (len := 30) (tlli := none) (by decide) (by decide) trivial hb) (by simp)
      simp only [k1, k2] at h
      simp at h

/-- The hypotheses of `c144_partial` are met: two N-PDUs of 4 and 6 octets in two blocks of 20 octets. -/
example : ∃ fs b1 b2, (samplePath true).send [[1, 2, 3, 4], [5, 6, 7, 8, 9, 10]] = .ok fs ∧
    ∃ up, recoveredAll [⟨fs, [], [b1, b2]⟩] = some up ∧
      (samplePath true).receive up = .ok [[1, 2, 3, 4], [5, 6, 7, 8, 9, 10]] := by
  have hn : Npdus [[1, 2, 3, 4], [5, 6, 7, 8, 9, 10]] := by
    intro n hn
    simp only [List.mem_cons, List.not_mem_nil, or_false] at hn
    rcases hn with rfl | rfl <;> exact ⟨by decide, by decide⟩
  obtain ⟨fs, h1, h2⟩ := c144_partial (samplePath true) _ (samplePath_ready true) hn
  have h : (match (samplePath true).send [[1, 2, 3, 4], [5, 6, 7, 8, 9, 10]] with
      | .ok fs => (match Rlc.createBlock 20 1 none fs with
        | .ok (_, [r]) => (match Rlc.createBlock 20 0 none [r] with
          | .ok (_, []) => true
          | _ => false)
        | _ => false)
      | _ => false) = true := by decide +kernel
  rw [h1] at h
  simp only at h
  cases hb : Rlc.createBlock 20 1 none fs with
  | err e => rw [hb] at h; cases h
  | ub f => rw [hb] at h; cases h
  | ok x =>
    obtain ⟨b1, q⟩ := x
    rw [hb] at h
    match q, h with
    | [r], h =>
      simp only at h
      cases hc : Rlc.createBlock 20 0 none [r] with
      | err e => rw [hc] at h; cases h
      | ub f => rw [hc] at h; cases h
      | ok y =>
        obtain ⟨b2, q2⟩ := y
        rw [hc] at h
        match q2, h with
        | [], _ =>
          refine ⟨fs, b1, b2, h1, h2 _ ?_ (by simp)⟩
          intro u hu
          simp only [List.mem_singleton] at hu
          subst hu
          exact .more (len := 20) (cv := 1) (tlli := none) (new := []) (later := []) (by decide) (by decide) (by decide) hb
            (.last (len := 20) (tlli := none) (by decide) (by decide) (by intro h; simp at h) (by simpa using hc))

end Verif.Props
