import Verif.Csn1.Step
import Verif.Csn1.MsgLemmas
import Verif.Props.CsnRecv
import Verif.Props.CsnConfine
import Verif.Props.RlcSched
import Verif.Props.RlcCtx

/-!
# Control messages that are not for this station, or not understood
-/
namespace Verif.Props

open Csn1 Spec Rlc

/-! ## C124 -/

/-- The timer of contention resolution (T3166) runs: the station does not know yet whether the network has heard it or
another station that sent the same random access. -/
def Unresolved (t : UlTbf) : Prop := t.pending = true ∧ t.T = 3166

/-- **C124** (full).  A PACKET UPLINK ACK/NACK without the TLLI of the station does not end contention resolution: if the
TBF goes on, T3166 runs on. -/
def C124Statement : Prop :=
  ∀ env evs s outs, Ctx.init.run env evs = .ok (s, outs) → ∀ g ∈ s.es, ∀ i t, g.ul = some (i, t) → Unresolved t →
    ∀ v st (d : UlReport), d.Ok → dlStart v = some st → st + d.bits.length ≤ 184 → Contains v st d.bits →
    d.tlli ≠ some g.names.tlli → ∀ fn ts s' o, s.rxCtrlBlock env v fn ts = .ok (s', o) →
    ∀ g' ∈ s'.es, g'.n = g.n → ∀ t', g'.ul = some (i, t') → Unresolved t'

/-- The station with TLLI 1 has sent its first block. -/
def firstSent : List CtxEv := oneSending ++ [.rts allOk 104 4 3]

/-- A report for TLLI 0xc0001234. -/
def otherReport : UlReport :=
  { page := 0, tfi := 1, codingCommand := 0, final := false, ssn := 1, bitmap := [0, 0, 0, 0, 0, 0, 0, 1],
    tlli := some 0xc0001234, ta := none, power := none, r99 := none }

/-- A block without reservation. -/
def plainBlock (l : List Bool) : List Bool := natBits 8 0x40 ++ l ++ List.replicate (176 - l.length) false

theorem otherReport_ok : otherReport.Ok := by
  refine ⟨by decide, by decide, by decide, by decide, by decide, ?_, ?_, ?_, ?_⟩
  · rintro p h; cases h; decide
  · rintro p h; cases h
  · rintro p h; cases h
  · rintro p h; cases h

/-- **C124 is violated**: the TLLI is not looked at. -/
theorem c124_violated : ¬ C124Statement := by
  intro h
  have hg : ((endOf firstSent).1.es)[0]'(by decide) ∈ (endOf firstSent).1.es := List.getElem_mem _
  obtain ⟨s', o, e⟩ : ∃ s' o, (endOf firstSent).1.rxUlAck 1 false (askedPoll (plainBlock otherReport.bits)) false 112 4 =
      .ok (s', o) := ⟨_, _, rfl⟩
  have hb : (endOf firstSent).1.rxCtrlBlock env1 (plainBlock otherReport.bits) 112 4 = .ok (s', o) :=
    ((c123_uplink_ack _ 8 otherReport otherReport_ok (by decide +kernel) (by decide +kernel) (by decide +kernel)).2
      env1 _ 112 4).trans e
  have := h env1 firstSent (endOf firstSent).1 (endOf firstSent).2 rfl _ hg 0 _ rfl ⟨rfl, rfl⟩ (plainBlock otherReport.bits) 8
    otherReport otherReport_ok (by decide +kernel) (by decide +kernel) (by decide +kernel) (by decide) 112 4 s' o hb
  have ep : askedPoll (plainBlock otherReport.bits) = none := by decide +kernel
  rw [ep] at e
  cases e
  exact absurd (this _ (List.getElem_mem (n := 0) (by decide)) rfl _ rfl).1 (by decide)

/-- **C124**: partial: a report for another TFI leaves the station, its TBF and T3166 alone. -/
theorem c124_other_tfi_partial {env : UlEnv} {evs : List CtxEv} {s : Ctx} {outs : List CtxOut}
    (hr : Ctx.init.run env evs = .ok (s, outs)) {g : Gre} (hg : g ∈ s.es) {i : Nat} {t : UlTbf} (hu : g.ul = some (i, t))
    {v : List Bool} {st : Nat} {d : UlReport} (ok : d.Ok) (hst : dlStart v = some st) (hs : st + d.bits.length ≤ 184)
    (hc : Contains v st d.bits) (ht : d.tfi ≠ t.cur.tfi) {fn ts : Nat} {s' : Ctx} {o : List CtxOut}
    (e : s.rxCtrlBlock env v fn ts = .ok (s', o)) : g ∈ s'.es := by
  rw [(c123_uplink_ack v st d ok hst hs hc).2] at e
  have w := run_wf evs (init_wf false _) hr
  rcases step_only (env := env) (e := .ulAck d.tfi d.final (askedPoll v) (d.r99.elim false UlAckR99.tbfEst) fn ts) w trivial e with
    ⟨rfl, -⟩ | ⟨g0, hg0, ⟨j, t0, h1, h2⟩, k⟩ | ⟨-, k⟩
  · exact hg
  · refine (k.others g fun en => ?_).1 hg
    rw [w.only hg0 g hg en, h1] at hu
    cases hu
    exact ht h2.symm
  · exact (k.others g fun en => absurd (w.lt g hg) (by rw [en]; exact Nat.lt_irrefl _)).1 hg

/-- Not vacuous. -/
example : Ctx.init.run env1 firstSent = .ok (endOf firstSent) ∧ dlStart (sampleBlock sampleUk.bits) = some 24 ∧
    Contains (sampleBlock sampleUk.bits) 24 sampleUk.bits ∧ ∃ g ∈ (endOf firstSent).1.es, ∃ i t, g.ul = some (i, t) ∧
      sampleUk.tfi ≠ t.cur.tfi ∧ Unresolved t :=
  ⟨rfl, by decide +kernel, by decide +kernel, _, List.getElem_mem (n := 0) (by decide), 0, _, rfl, by decide, rfl, rfl⟩

/-! ## C125 -/

/-- The message is of a type that the station does nothing with (it knows PACKET DOWNLINK ASSIGNMENT, PACKET UPLINK ACK/NACK
and PACKET UPLINK ASSIGNMENT), or an acknowledgement in EGPRS format: the bit behind the TFI is set. -/
def NotForUs (v : List Bool) : Prop :=
  dlMessageType v ∉ [2, 9, 10] ∨ dlMessageType v = 9 ∧ ∃ st, dlStart v = some st ∧ fieldAt v (st + 15) 1 = 1

/-- **C125** (full).  Whatever the rest of such a block holds, it has no effect. -/
def C125Statement : Prop :=
  ∀ env evs s outs, Ctx.init.run env evs = .ok (s, outs) → ∀ v, v.length = 184 → NotForUs v → ∀ fn ts,
    s.rxCtrlBlock env v fn ts = .ok (s, [])

/-- An EGPRS acknowledgement for TFI 1. -/
def egprsBits : List Bool := natBits 6 9 ++ natBits 2 0 ++ natBits 2 0 ++ natBits 5 1 ++ [true]

/-- **C125 is violated**: an acknowledgement in EGPRS format is taken for one in GPRS format. -/
theorem c125_egprs_violated : ¬ C125Statement := by
  intro h
  have := h env1 firstSent (endOf firstSent).1 (endOf firstSent).2 rfl (plainBlock egprsBits) (by decide +kernel)
    (.inr ⟨by decide +kernel, 8, by decide +kernel, by decide +kernel⟩) 112 4
  have h2 : (match (endOf firstSent).1.rxCtrlBlock env1 (plainBlock egprsBits) 112 4 with
    | .ok x => decide (x.1 = (endOf firstSent).1) | _ => false) = false := by decide +kernel
  rw [this] at h2
  revert h2
  simp

/-- **C125 is violated** again: decoding a message of a type the station does not use can store outside a member
(C100). -/
theorem c125_unused_violated : ¬ C125Statement := by
  intro h
  obtain ⟨v, h1, h2, u, h3⟩ := c100_violated_downlink 1 (by decide)
  have := h env1 [] Ctx.init [] rfl v h1 (.inl (by rw [h2]; decide)) 0 0
  unfold Ctx.rxCtrlBlock readCtrl at this
  rw [h3] at this
  cases this

theorem dl_type_first : ∀ mt : Fin 64, mt.val ≠ 55 → (match dlTable mt.val with
    | some (.uint 0 1 6 false :: ds) => lowL 1 ds
    | some _ => false
    | none => true) = true := by decide +kernel

/-- The decoded message type is that of the block. -/
theorem dl_type {v : List Bool} {m : Mem} {s : CSt} (h : decodeDownlink .member v m = .ok s) (hn : dlMessageType v ≠ 55) :
    s.byte 0 = dlMessageType v := by
  obtain ⟨s1, e1, h⟩ := CRes.bind_eq_ok h
  obtain ⟨s2, e2, h⟩ := CRes.bind_eq_ok h
  obtain ⟨s3, e3, h⟩ := CRes.bind_eq_ok h
  obtain ⟨s4, e4, h⟩ := CRes.bind_eq_ok h
  have hp : HdrFits .member := fun _ _ => rfl
  have hpt : s4.byte dlUnion = payloadType v := by
    rw [hdr_byte_ne e4 (by omega), hdr_byte_ne e3 (by omega), hdr_byte_ne e2 (by omega),
      hdr_byte_eq e1 (by decide)]
    rfl
  have r1 := (hdr_rd e1).1
  have r2 := (hdr_rd e2).1
  have r3 := (hdr_rd e3).1
  have r4 := (hdr_rd e4).1
  dsimp only at r1
  split at h
  · cases h
  · obtain ⟨s5, e5, h⟩ := CRes.bind_eq_ok h
    have hopt : s5.rd = s5.bo ∧ s5.bo = dlMessageAt v := by
      unfold dlOpt at e5
      have hpt' : ({ s4 with bo := 8 } : CSt).byte dlUnion = payloadType v := hpt
      rw [hpt'] at e5
      unfold dlMessageAt
      split at e5
      · rename_i c
        rw [if_pos c]
        exact (hdrOpt_post hp (by dsimp only; omega) rfl).2 _ e5
      · rename_i c
        rw [if_neg c]
        cases e5
        exact ⟨by dsimp only; omega, rfl⟩
    obtain ⟨s6, e6, h⟩ := CRes.bind_eq_ok h
    obtain ⟨s7, e7, h⟩ := CRes.bind_eq_ok h
    obtain ⟨rfl, _⟩ := wr_eq_ok e7
    have hby : ({ s6 with mem := s6.mem.putLe (0 + (dlUnion + 14) + 0) 2 (184 - s6.bo) } : CSt).byte 0 =
        dlMessageType v := by
      unfold dlMessageType
      rw [← hopt.2, ← hopt.1, ← hdr_byte_eq e6 (by decide)]
      unfold CSt.byte
      dsimp only
      rw [putLe_lo _ _ _ _ _ (by unfold dlUnion; omega)]
    rw [hby] at h
    have hf := dl_type_first ⟨dlMessageType v, bitsVal_lt v 6 _⟩ hn
    dsimp only at hf
    split at h
    · rename_i t ht
      rw [ht] at hf
      split at hf
      · rename_i ds he
        cases he
        obtain ⟨t1, d1, -, -, -, b1, -⟩ := uint_step h (by decide)
        have lo := decL_lo (v := v) (p := .member) (base := 0) (l := 1) ds {} t1 hf
        have hm := lo s d1 0 (by decide)
        unfold CSt.byte at b1 ⊢
        rw [hm]
        rw [show (0 + 0 : Nat) = 0 from rfl] at b1
        rw [b1]
        dsimp only
        rw [(hdr_rd e6).2, hopt.2]
        rfl
      · cases hf
      · rename_i he; cases he
    · cases h

/-- **C125**: partial: every message type the station does not use, but for those whose decoding can go wrong. -/
theorem c125_unused_types_partial (env : UlEnv) (s : Ctx) (v : List Bool) (h : dlMessageType v ∉ [2, 9, 10])
    (hc : dlMessageType v ∉ c100_dlTypes) (fn ts : Nat) : s.rxCtrlBlock env v fn ts = .ok (s, []) := by
  unfold Ctx.rxCtrlBlock readCtrl
  cases e : decodeDownlink .member v (fun _ => 0) with
  | fail c => rfl
  | ub u => exact absurd e (c100_downlink_partial v _ hc u)
  | ok t =>
    have hb : t.mem 0 % 256 = dlMessageType v := dl_type e fun x => hc (by rw [x]; decide)
    simp only [List.mem_cons, List.not_mem_nil, or_false, not_or] at h
    show s.rxCtrl env (memCtrl t.mem) _ fn ts = _
    unfold memCtrl
    rw [hb, if_neg h.1, if_neg h.2.1, if_neg h.2.2]
    rfl

/-- Among them PACKET POLLING REQUEST, PACKET ACCESS REJECT, PACKET PDCH RELEASE, PACKET TBF RELEASE and all types
without a meaning. -/
example : ∀ mt ∈ [4, 8, 33, 35, 0, 63], mt ∉ [2, 9, 10] ∧ mt ∉ c100_dlTypes := by decide

end Verif.Props
