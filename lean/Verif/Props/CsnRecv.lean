import Verif.Csn1.RecvRead

/-!
# Control messages received
-/
namespace Verif.Props

open Csn1 Spec

/-! ## C123 -/

/-- The reservation a block asks to be used: the two RRBP bits, if the S/P bit is set (3GPP TS 44.060, 10.4.4 and
10.4.5). -/
def askedPoll (v : List Bool) : Option Nat := if fieldAt v 4 1 = 1 then some (fieldAt v 2 2) else none

/-- **C123** PACKET DOWNLINK ASSIGNMENT: whatever optional octets precede it and whatever optional elements it has,
the station takes from the block the identity, TFI, starting time, timeslots, acknowledgement control and reservation that
were sent, and acts on them. -/
theorem c123_downlink_assignment (v : List Bool) (st : Nat) (d : DlAssignment) (ok : d.Ok) (hst : dlStart v = some st)
    (hs : st + d.bits.length ≤ 184) (hr : Contains v st d.bits) :
    readCtrl v = .ok (.dlAss d.station.msId (.pkt d.tfi d.start (natBits 8 d.slots)) d.ctrlAck, askedPoll v) ∧
    ∀ env (s : Rlc.Ctx) fn ts, s.rxCtrlBlock env v fn ts =
      s.rxPktDlAss env d.station.msId (.pkt d.tfi d.start (natBits 8 d.slots)) d.ctrlAck (askedPoll v) fn ts := by
  have h : readCtrl v = .ok (.dlAss d.station.msId (.pkt d.tfi d.start (natBits 8 d.slots)) d.ctrlAck, askedPoll v) := read_da ok hst hs hr
  refine ⟨h, fun env s fn ts => ?_⟩
  unfold Rlc.Ctx.rxCtrlBlock
  rw [h]
  rfl

/-- **C123** PACKET UPLINK ASSIGNMENT with dynamic allocation. -/
theorem c123_uplink_assignment (v : List Bool) (st : Nat) (d : UlAssignment) (ok : d.Ok) (hst : dlStart v = some st)
    (hs : st + d.bits.length ≤ 184) (hr : Contains v st d.bits) :
    readCtrl v = .ok (.ulAss d.station.msId (.dynamic d.tfi d.start ((List.range 8).map d.slots.usf)) d.codingCommand, askedPoll v) ∧
    ∀ env (s : Rlc.Ctx) fn ts, s.rxCtrlBlock env v fn ts =
      s.rxPktUlAss env d.station.msId (.dynamic d.tfi d.start ((List.range 8).map d.slots.usf)) (askedPoll v) fn ts := by
  have h : readCtrl v = .ok (.ulAss d.station.msId (.dynamic d.tfi d.start ((List.range 8).map d.slots.usf)) d.codingCommand, askedPoll v) :=
    read_ua ok hst hs hr
  refine ⟨h, fun env s fn ts => ?_⟩
  unfold Rlc.Ctx.rxCtrlBlock
  rw [h]
  rfl

/-- **C123** PACKET UPLINK ACK/NACK: the final acknowledgement, starting sequence number and bitmap that were sent. -/
theorem c123_uplink_ack (v : List Bool) (st : Nat) (d : UlReport) (ok : d.Ok) (hst : dlStart v = some st)
    (hs : st + d.bits.length ≤ 184) (hr : Contains v st d.bits) :
    readCtrl v = .ok (.ulAck d.tfi ⟨d.final, d.ssn, d.bitmap⟩ (d.r99.elim false UlAckR99.tbfEst) d.codingCommand, askedPoll v) ∧
    ∀ env (s : Rlc.Ctx) fn ts, s.rxCtrlBlock env v fn ts =
      s.rxUlAck d.tfi d.final (askedPoll v) (d.r99.elim false UlAckR99.tbfEst) fn ts := by
  have h : readCtrl v = .ok (.ulAck d.tfi ⟨d.final, d.ssn, d.bitmap⟩ (d.r99.elim false UlAckR99.tbfEst) d.codingCommand, askedPoll v) :=
    read_uk ok hst hs hr
  refine ⟨h, fun env s fn ts => ?_⟩
  unfold Rlc.Ctx.rxCtrlBlock
  rw [h]
  rfl

/-- An assignment to TLLI 0xc0001234 with all optional elements. -/
def sampleDa : DlAssignment :=
  { page := 1, persistence := some ⟨1, 2, 3, 4⟩, station := .tlli 0xc0001234, macMode := 0, rlcMode := 0, ctrlAck := true,
    slots := 0x28, ta := ⟨some 13, some (3, 5)⟩, p0 := some (4, 1, 0), freq := some (.indirect 5 33 2 (some (1, some 2))), tfi := some 17,
    power := some ⟨9, fun i => if i = 2 then some 21 else none⟩, start := some (.abs 3 44 21) }

def sampleUa : UlAssignment :=
  { page := 0, persistence := none, station := .dl 9, codingCommand := 1, tlliCoding := 1, ta := ⟨none, none⟩,
    freq := some (.arfcn 7 871), extended := 0, p0 := some (3, 1), granularity := 0, tfi := some 30, granted := some 200,
    start := some (.rel 4099), slots := .power 5 fun i => if i = 3 then some (6, 17) else none }

def sampleUk : UlReport :=
  { page := 2, tfi := 11, codingCommand := 3, final := false, ssn := 101, bitmap := [0, 0, 0, 0, 0xff, 0x81, 0x7e, 0x35],
    tlli := some 0xc0001234, ta := some ⟨some 1, none⟩, power := none, r99 := some ⟨some 1, true⟩ }

/-- A block with reservation 2 and an optional octet with TFI. -/
def sampleBlock (l : List Bool) : List Bool := natBits 8 0x98 ++ natBits 8 0x01 ++ natBits 8 0x0a ++ l ++ List.replicate (160 - l.length) false

/-- Not vacuous. -/
example : sampleDa.Ok ∧ dlStart (sampleBlock sampleDa.bits) = some 24 ∧ 24 + sampleDa.bits.length ≤ 184 ∧
    Contains (sampleBlock sampleDa.bits) 24 sampleDa.bits ∧ askedPoll (sampleBlock sampleDa.bits) = some 1 := by
  refine ⟨⟨by decide, ?_, (show 0xc0001234 < 2 ^ 32 by decide), by decide, by decide, by decide, ?_, ?_, ?_, ?_, ?_, ?_⟩, by decide +kernel, by decide +kernel, by decide +kernel, by decide +kernel⟩
  · rintro p h; cases h; exact ⟨by decide, by decide, by decide, by decide⟩
  · exact ⟨fun _ h => by cases h; decide, fun _ h => by cases h; decide⟩
  · rintro p h; cases h; decide
  · rintro p h; cases h; exact ⟨by decide, by decide, by decide, fun _ h => by cases h; exact ⟨by decide, fun _ h => by cases h; decide⟩⟩
  · rintro p h; cases h; decide
  · rintro p h; cases h
    refine ⟨by decide, fun i x h => ?_⟩
    dsimp only at h
    split at h
    · cases h; decide
    · cases h
  · rintro p h; cases h; exact ⟨by decide, by decide, by decide⟩

example : sampleUa.Ok ∧ dlStart (sampleBlock sampleUa.bits) = some 24 ∧ 24 + sampleUa.bits.length ≤ 184 ∧
    Contains (sampleBlock sampleUa.bits) 24 sampleUa.bits := by
  refine ⟨⟨by decide, ?_, (show 9 < 32 by decide), by decide, by decide, ?_, ?_, by decide, ?_, by decide, ?_, ?_, ?_, ?_⟩, by decide +kernel, by decide +kernel, by decide +kernel⟩
  · rintro p h; cases h
  · exact ⟨fun _ h => (by cases h), fun _ h => (by cases h)⟩
  · rintro p h; cases h; exact ⟨by decide, by decide⟩
  · rintro p h; cases h; decide
  · rintro p h; cases h; decide
  · rintro p h; cases h; decide
  · rintro p h; cases h; show 4099 < 8192; decide
  · refine ⟨by decide, fun i x h => ?_⟩
    dsimp only at h
    split at h
    · cases h; decide
    · cases h

example : sampleUk.Ok ∧ dlStart (sampleBlock sampleUk.bits) = some 24 ∧ 24 + sampleUk.bits.length ≤ 184 ∧
    Contains (sampleBlock sampleUk.bits) 24 sampleUk.bits := by
  refine ⟨⟨by decide, by decide, by decide, by decide, by decide, ?_, ?_, ?_, ?_⟩, by decide +kernel, by decide +kernel, by decide +kernel⟩
  · rintro p h; cases h; decide
  · rintro p h; cases h; exact ⟨fun _ h => by cases h; decide, fun _ h => by cases h⟩
  · rintro p h; cases h
  · rintro p h x h'; cases h; cases h'; decide

end Verif.Props
