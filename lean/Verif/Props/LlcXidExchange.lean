import Verif.Props.LlcMgmt

/-!
# The XID exchange between two LLC peers: C58 (command/response bit) and C59 (delivery)
-/
namespace Verif.Props

open Verif.Llc Verif.Spec

/-- The other end of the link. -/
def Location.peer : Location → Location
  | .ms => .sgsn
  | .sgsn => .ms

/-! ## C58 -/

/-- **C58, full statement**: whether a U frame was sent as a command or as a response is what the other
end takes it for. -/
def CrUnderstood : Prop :=
  ∀ (loc : Location) (isCmd : Bool), receivedCrIsCmd (Location.peer loc) (encodeCr loc isCmd) = isCmd

/-- What holds: commands are taken for commands. -/
theorem c58_command_partial (loc : Location) : receivedCrIsCmd (Location.peer loc) (encodeCr loc true) = true := by
  cases loc <;> rfl

/-- Responses are taken for commands, at both ends. -/
theorem c58_response_violated (loc : Location) :
    receivedCrIsCmd (Location.peer loc) (encodeCr loc false) = true := by
  cases loc <;> rfl

theorem c58_violated : ¬ CrUnderstood := fun h => by cases h .ms false

/-- Two entities on one link and the frames in flight to the second one. -/
structure Link where
  here : Location × Lle
  there : Location × Lle
  flight : List Octets
  deriving DecidableEq

/-- Frames among the outputs. -/
def framesDown (o : List Out) : List Octets :=
  o.filterMap (fun | .down _ _ _ _ p => some p | _ => none)

/-- One entity receives one frame; frames the decoder rejects are dropped. -/
def recvFrame (tlli : Nat) (e : Location × Lle) (d : Octets) : (Location × Lle) × List Octets :=
  match decode d with
  | .ok p => let r := e.2.rx e.1 tlli d p; ((e.1, r.lle), framesDown r.out)
  | _ => (e, [])

/-- Everything in flight arrives; the answers are then in flight in the other direction. -/
def Link.turn (tlli : Nat) (k : Link) : Link :=
  let r := k.flight.foldl
    (fun s d => let t := recvFrame tlli s.1 d; (t.1, s.2 ++ t.2)) (k.there, ([] : List Octets))
  { here := r.1, there := k.here, flight := r.2 }

/-- `n` turns. -/
def Link.turns (tlli : Nat) (k : Link) : Nat → Link
  | 0 => k
  | n + 1 => (Link.turns tlli k n).turn tlli

/-- The link right after the MS sent an LL-XID.req without Layer-3 parameters on SAPI 3. -/
def xidLink : Link :=
  let r := (Lle.init 3).txXidReq .ms 0xc0000001 none
  { here := (.ms, r.lle), there := (.sgsn, Lle.init 3), flight := framesDown r.out }

/-- C58's consequence: a single LL-XID.req between two instances of this library is answered by
responses taken for commands, so the exchange never ends, however long one waits. -/
theorem c58_xid_exchange_never_ends (n : Nat) : ((xidLink.turns 0xc0000001) n).flight.length = 1 := by
  have h2 : ∀ k, Link.turns 0xc0000001 xidLink (k + 2) = Link.turns 0xc0000001 xidLink k := by
    intro k
    induction k with
    | zero => decide +kernel
    | succ k ih => exact congrArg (Link.turn 0xc0000001) ih
  have h0 : (Link.turns 0xc0000001 xidLink 0).flight.length = 1 := by decide +kernel
  have h1 : (Link.turns 0xc0000001 xidLink 1).flight.length = 1 := by decide +kernel
  have key : ∀ n, (Link.turns 0xc0000001 xidLink n).flight.length = 1 ∧
      (Link.turns 0xc0000001 xidLink (n + 1)).flight.length = 1 := by
    intro n
    induction n with
    | zero => exact ⟨h0, h1⟩
    | succ n ih => exact ⟨ih.2, by rw [h2 n]; exact ih.1⟩
  exact (key n).1

/-! ## C59 -/

/-- **C59, full statement**: an LL-XID.req reaches the peer's user: the frame it produces passes the
peer's checks and the peer indicates the Layer-3 parameters given. -/
def XidReqDelivered : Prop :=
  ∀ (loc : Location) (tlli : Nat) (s : Nat) (l3 : Octets), UserSapi s → 0 < l3.length → l3.length < 256 →
    s ≠ 1 →
    ∃ pdu p, framesDown ((Lle.init s).txXidReq loc tlli (some l3)).out = [pdu] ∧ decode pdu = .ok p ∧
      ∃ u i, Out.xidInd tlli s (some l3) u i ∈ ((Lle.init s).rx (Location.peer loc) tlli pdu p).out

/-- The property is false: the FCS of the XID frame covers only its first seven octets while the peer
checks all of it, so the peer drops the frame. -/
theorem c59_violated : ¬ XidReqDelivered := by
  intro h
  obtain ⟨pdu, p, h1, h2, u, i, h3⟩ :=
    h .ms 0xc0000001 3 [0] (by simp [UserSapi]) (by decide) (by decide) (by decide)
  have e1 : framesDown ((Lle.init 3).txXidReq .ms 0xc0000001 (some [0])).out =
      [[3, 251, 1, 0, 22, 1, 244, 26, 5, 223, 45, 0, 104, 64, 217]] := by decide +kernel
  rw [e1] at h1
  injection h1 with h1 _
  subst h1
  have e2 : (match decode [3, 251, 1, 0, 22, 1, 244, 26, 5, 223, 45, 0, 104, 64, 217] with
    | .ok p => ((Lle.init 3).rx .sgsn 0xc0000001
        [3, 251, 1, 0, 22, 1, 244, 26, 5, 223, 45, 0, 104, 64, 217] p).out
    | _ => []) = [] := by decide +kernel
  rw [h2] at e2
  simp only at e2
  have h4 : Location.peer .ms = .sgsn := rfl
  rw [h4, e2] at h3
  cases h3

/-- **C59 (part)**: without Layer-3 parameters the request does reach the peer, for every legal N201-U
and every usable SAPI: the peer, whatever its state, adopts the sender's N201-U.  Missing: requests with Layer-3
parameters (`c59_violated`). -/
theorem c59_xid_req_delivered_partial (loc : Location) (tlli : Nat) (l r : Lle) (hs : SapiUsable l.sapi)
    (hn : XidLegal 5 l.params.n201u) :
    ∃ pdu p, (l.txXidReq loc tlli none).out = [.down (loc == .sgsn) tlli l.sapi 1 pdu] ∧
      decode pdu = .ok p ∧ p.sapi = l.sapi ∧
      (r.rx (Location.peer loc) tlli pdu p).lle.params.n201u = l.params.n201u := by
  have hfs : l.xidFields none = [{ type := 0, val := 0 }, { type := 5, val := l.params.n201u }] := rfl
  have hwf : ∀ f ∈ l.xidFields none, XidWellFormed f := by
    rw [hfs]
    intro f hf
    simp only [List.mem_cons, List.not_mem_nil, or_false] at hf
    rcases hf with rfl | rfl
    · exact .inr ⟨by simp [XidLegal], rfl⟩
    · exact .inr ⟨hn, rfl⟩
  have hsum : ((l.xidFields none).map xidWireSize).sum = 5 := by rw [hfs]; simp [xidWireSize]
  obtain ⟨w, hw, _, hdec⟩ := c07_xid_roundtrip 1024 16 (l.xidFields none) hwf
    (by rw [hfs]; simp) (by omega)
  obtain ⟨w', hw', hlen⟩ := encLoop_succeeds 1024 (l.xidFields none) 0 hwf (by omega)
  rw [show xidEncLoop 1024 0 (l.xidFields none) = xidEncode 1024 (l.xidFields none) from rfl, hw] at hw'
  injection hw' with hw'
  subst hw'
  rw [hsum] at hlen
  obtain ⟨pdu, p, henc, hd, hfcs, hfmt, hfunc, hsapi, hcr, _, hem, hpl⟩ := c04_u_roundtrip_partial
    { sapi := l.sapi, fmt := .U, func := .XID
      flags := { follFin := true, cmdRsp := encodeCr loc true }, data := w } rfl (by simp [UFunc]) hs rfl
    (by simp only; omega) (.inr (by simp only; omega))
  refine ⟨pdu, p, ?_, hd, hsapi, ?_⟩
  · unfold Lle.txXidReq
    simp only [hw]
    rw [if_pos (by omega)]
    unfold Lle.txXid txFrame
    simp only [henc]
  · simp only [if_true] at hpl hfunc hcr
    unfold Lle.rx
    simp only [hem, hfcs, hfunc, hcr, c58_command_partial, hpl, if_true, Bool.not_true, Bool.false_eq_true,
      if_false]
    unfold Lle.processXidInd
    have hval : (([{ type := 0, val := 0 }, { type := 5, val := l.params.n201u }] : List XidField).foldl
        xidIndField (r.params, false)).1.n201u = l.params.n201u := by
      have : l.params.n201u % 2 ^ 16 = l.params.n201u :=
        Nat.mod_eq_of_lt (by simp [XidLegal] at hn; omega)
      simp only [List.foldl, xidIndField]
      by_cases h : r.params.n201u = l.params.n201u <;> simp [h] <;> omega
    rw [hfs] at hdec
    simp only [hdec]
    rw [if_neg (by simp [lastL3])]
    simp only [(txXidResp_same _ _ _ _).1]
    exact hval

/-- Non-vacuity of the partial C59: both ends with different N201-U. -/
example : ∃ l r : Lle, SapiUsable l.sapi ∧ XidLegal 5 l.params.n201u ∧ l.params.n201u ≠ r.params.n201u :=
  ⟨Lle.init 3, Lle.init 1, by decide, by simp [XidLegal, Lle.init, defaultParams], by decide⟩

end Verif.Props
