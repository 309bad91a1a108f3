import Verif.Props.DlLink
import Verif.Props.EndToEnd

/-!
# C152: packets through the whole stack over a downlink that loses and delays blocks
-/
namespace Verif.Props

open Verif.Spec Verif.Rlc

/-- A downlink TBF with what it carries and how far it has got. -/
structure DlSession where
  blk : Nat → Rlc.Block
  total : Nat
  link : DlLink

/-- The LLC frames the network put into the TBF. -/
def DlSession.frames (x : DlSession) : List Octets := framesUpTo x.blk x.total

/-- The TBF is going on over a link that loses and delays blocks and reports. -/
structure DlSession.Running (x : DlSession) : Prop where
  transfer : Transfer x.blk x.total
  reached : x.link.Reached x.blk 64 x.total

theorem DlSession.Running.all {x : DlSession} (h : x.Running) (hd : x.link.net.done = true) : x.link.given = x.frames :=
  (c150_downlink_reliable h.transfer h.reached).2.2.2 hd

theorem dl_given_all : ∀ xs : List DlSession, (∀ x ∈ xs, x.Running ∧ x.link.net.done = true) →
    xs.flatMap (fun x => x.link.given) = xs.flatMap DlSession.frames := by
  intro xs
  induction xs with
  | nil => intro _; rfl
  | cons x xs ih =>
    intro h
    obtain ⟨a, b⟩ := h x List.mem_cons_self
    rw [List.flatMap_cons, List.flatMap_cons, ih (fun y hy => h y (List.mem_cons_of_mem _ hy)), a.all b]

/-- C152: N-PDUs sent by the network in any number of downlink TBFs, one after the other, over a link that loses and
delays blocks and reports, are delivered exactly once, unchanged and in order, once the network has been told that each
TBF is complete; and while the last TBF is going on, the N-PDUs delivered are the first ones, unchanged and in order. -/
theorem c152_downlink_packets (p : Path) (ns : List Octets) (hr : p.Ready) (hns : Npdus ns) :
    ∃ frames, p.send ns = .ok frames ∧
      (∀ xs : List DlSession, (∀ x ∈ xs, x.Running ∧ x.link.net.done = true) → xs.flatMap DlSession.frames = frames →
        p.receive (xs.flatMap fun x => x.link.given) = .ok ns) ∧
      (∀ (xs : List DlSession) (x : DlSession) (rest : List Octets), (∀ x ∈ xs, x.Running ∧ x.link.net.done = true) →
        x.Running → xs.flatMap DlSession.frames ++ x.frames ++ rest = frames →
        ∃ got, p.receive ((xs.flatMap fun x => x.link.given) ++ x.link.given) = .ok got ∧ got <+: ns) := by
  obtain ⟨frames, h1, _, h3, h4⟩ := upper_path hr hns
  refine ⟨frames, h1, fun xs hx he => ?_, fun xs x rest hx hx' he => ?_⟩
  · rw [dl_given_all xs hx, he]; exact h3
  · rw [dl_given_all xs hx]
    obtain ⟨t, ht⟩ := (c150_downlink_reliable hx'.transfer hx'.reached).2.1
    have hpre : frames.take (xs.flatMap DlSession.frames ++ x.link.given).length =
        xs.flatMap DlSession.frames ++ x.link.given := by
      rw [← he, DlSession.frames, ← ht]
      simp only [← List.append_assoc]
      rw [List.append_assoc, List.take_left']
      rfl
    obtain ⟨got, g1, g2⟩ := h4 (xs.flatMap DlSession.frames ++ x.link.given).length
    rw [hpre] at g1
    exact ⟨got, g1, g2⟩

/-! ### A concrete transfer -/

/-- The last of the blocks is marked. -/
def markLast (total : Nat) (blk : Nat → Rlc.Block) : Nat → Rlc.Block := fun n => { blk n with fbi := n + 1 == total }

/-- Two N-PDUs of 9 octets, each in one frame of 19 octets, each in one block; block 0 is lost once, a report is lost. -/
def twoPackets : List Octets := [List.replicate 9 7, List.replicate 9 8]

def twoPacketsEvents : List DlLinkEv :=
  [.send 0, .downLost, .send 1, .downArrives, .report, .upLost, .report, .send 0, .upArrives, .downArrives, .report,
   .upArrives]

theorem oneEach_marked {fs : List Octets} {total : Nat} (hl : ∀ f ∈ fs, f.length = 19) (n : Nat) :
    blockPieces (markLast total (oneEach fs) n) = blockPieces (oneEach fs n) := by
  simp only [blockPieces, markLast, oneEach, pieces, readLis, cut]
  by_cases hn : n < fs.length
  · have := hl _ (List.getElem_mem hn)
    simp [hn, readLis, cut, this]
  · simp [hn, readLis, cut]

/-- The hypotheses are met, with losses in both directions, and both N-PDUs are delivered. -/
example : ∃ (frames : List Octets) (x : DlSession), (samplePath false).send twoPackets = .ok frames ∧ x.Running ∧
    x.link.net.done = true ∧ x.frames = frames ∧ (samplePath false).receive x.link.given = .ok twoPackets := by
  have hn : Npdus twoPackets := by
    intro n hn
    simp only [twoPackets, List.mem_cons, List.not_mem_nil, or_false] at hn
    rcases hn with rfl | rfl <;> exact ⟨by decide, by decide⟩
  obtain ⟨frames, h1, h2, _⟩ := c152_downlink_packets (samplePath false) twoPackets (samplePath_ready false) hn
  have h : (match (samplePath false).send twoPackets with
      | .ok fs => decide (fs.length = 2 ∧ ∀ f ∈ fs, f.length = 19) &&
        (match dlRunB (markLast 2 (oneEach fs)) 64 2 twoPacketsEvents DlLink.init with
        | some s => s.net.done
        | none => false)
      | _ => false) = true := by decide +kernel
  rw [h1] at h
  simp only [Bool.and_eq_true, decide_eq_true_eq] at h
  obtain ⟨⟨hl2, hl⟩, h⟩ := h
  cases hx : dlRunB (markLast 2 (oneEach frames)) 64 2 twoPacketsEvents DlLink.init with
  | none => rw [hx] at h; cases h
  | some s =>
    rw [hx] at h
    have hup : ∀ k, piecesUpTo (markLast 2 (oneEach frames)) k = piecesUpTo (oneEach frames) k := by
      intro k; simp only [piecesUpTo, oneEach_marked hl]
    have hp := oneEach_proper hl
    have hrun : DlSession.Running ⟨markLast 2 (oneEach frames), 2, s⟩ :=
      { transfer := {
          proper := {
            size := fun n => hp.size n
            few := fun n => by rw [oneEach_marked hl]; exact hp.few n
            short := fun k => by
              have := hp.short k
              simp only [framesUpTo, hup] at this ⊢
              exact this }
          some := by simp
          fbi := fun n _ => by simp [markLast] }
        reached := dlRunB_reached _ .init hx }
    have hf : DlSession.frames ⟨markLast 2 (oneEach frames), 2, s⟩ = frames := by
      have := oneEach_frames hl
      rw [hl2] at this
      simpa only [DlSession.frames, framesUpTo, hup] using this
    refine ⟨frames, _, h1, hrun, h, hf, ?_⟩
    have := h2 [_] (by intro y hy; rw [List.mem_singleton.1 hy]; exact ⟨hrun, h⟩) (by simp [hf])
    simpa using this

end Verif.Props
