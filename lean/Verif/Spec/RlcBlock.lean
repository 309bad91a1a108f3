import Verif.Basic

/-!
# Specification: how an RLC data block carries LLC PDUs (3GPP TS 44.060, 10.2, 10.4.12-10.4.14)

The payload of a GPRS RLC data block starts with length indicator octets if the extension bit E of the
header is 0.  Each such octet is `LLLLLLME` (length, more bit, extension bit).  In an uplink block with
TI = 1 the four octets of the TLLI follow.  The rest is LLC data, cut into pieces by the length
indicators.
-/
namespace Verif.Spec

/-- A piece of an LLC PDU carried by one block; `true`: the PDU ends with this piece. -/
abbrev Piece := Octets × Bool

/-- Length indicators at the start of a payload: the lengths; whether another PDU (or the rest of one)
follows the delimited ones up to the end of the block; the octets behind.  `none`: not well-formed, to be
ignored. -/
def readLis : Octets → Option (List Nat × Bool × Octets)
  | [] => none
  | o :: rest =>
    let l := o.toNat / 4
    let m := o.toNat / 2 % 2
    let e := o.toNat % 2
    if l = 0 then some ([], true, rest)
    else if m = 0 ∧ e = 0 then none
    else if e = 0 then (readLis rest).map fun r => (l :: r.1, r.2.1, r.2.2)
    else some ([l], m = 1, rest)

/-- Cut LLC data by the lengths; what is left over is one more piece (unless empty) if `more`.
`none`: a length exceeds the block. -/
def cut (isLast more : Bool) : List Nat → Octets → Option (List Piece)
  | [], d => some (if more ∧ d ≠ [] then [(d, isLast)] else [])
  | l :: ls, d =>
    if l ≤ d.length then (cut isLast more ls (d.drop l)).map fun r => (d.take l, true) :: r
    else none

/-- The pieces of LLC PDUs a block carries: `tlli` = TI, `e` = E, `isLast` = it is the last block of
the TBF (CV = 0 uplink, FBI = 1 downlink): there the last PDU ends with the block. -/
def pieces (tlli e isLast : Bool) (payload : Octets) : Option (List Piece) :=
  let skip := if tlli then 4 else 0
  if e then cut isLast true [] (payload.drop skip)
  else (readLis payload).bind fun r => cut isLast r.2.1 r.1 (r.2.2.drop skip)

/-- Reassembly: pieces are appended to the PDU in progress; PDUs come out when they end.  Result: the
complete PDUs and the PDU in progress. -/
def reassemble : Octets → List Piece → List Octets × Octets
  | p, [] => ([], p)
  | p, (x, true) :: s => ((p ++ x) :: (reassemble [] s).1, (reassemble [] s).2)
  | p, (x, false) :: s => reassemble (p ++ x) s

end Verif.Spec
