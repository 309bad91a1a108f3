import Verif.Spec.CsnMsg

/-!
# Specification: header of a downlink RLC/MAC control block (3GPP TS 44.060, 10.3.1 and 10.4)
-/
namespace Verif.Spec

/-- The fields of the header. -/
structure DlHdr where
  payload : Nat
  rrbp : Nat
  sp : Nat
  usf : Nat
  rbsn : Nat
  rti : Nat
  fs : Nat
  ac : Nat
  pr : Nat
  tfi : Nat
  d : Nat
  rbsne : Nat
  fse : Nat
  spare : Nat
  deriving Repr, DecidableEq

/-- A control message (payload type 1, or 2 with optional octets), numbers within their fields. -/
structure DlHdr.Ok (h : DlHdr) : Prop where
  payload : h.payload = 1 ∨ h.payload = 2
  rrbp : h.rrbp < 4
  sp : h.sp < 2
  usf : h.usf < 8
  rbsn : h.rbsn < 2
  rti : h.rti < 32
  fs : h.fs < 2
  ac : h.ac < 2
  pr : h.pr < 4
  tfi : h.tfi < 32
  d : h.d < 2
  rbsne : h.rbsne < 8
  fse : h.fse < 2
  spare : h.spare < 16

/-- Is there an octet with a TFI? -/
def DlHdr.hasTfi (h : DlHdr) : Bool := h.payload == 2 && h.ac == 1

/-- Is there an octet with an extended block sequence number? -/
def DlHdr.hasExt (h : DlHdr) : Bool := h.payload == 2 && h.rbsn == 1 && h.fs == 0

/-- The octets. -/
def DlHdr.bits (h : DlHdr) : List Bool :=
  (natBits 2 h.payload ++ natBits 2 h.rrbp ++ natBits 1 h.sp ++ natBits 3 h.usf) ++
  ((if h.payload = 2 then natBits 1 h.rbsn ++ natBits 5 h.rti ++ natBits 1 h.fs ++ natBits 1 h.ac else []) ++
  ((if h.hasTfi then natBits 2 h.pr ++ natBits 5 h.tfi ++ natBits 1 h.d else []) ++
  (if h.hasExt then natBits 3 h.rbsne ++ natBits 1 h.fse ++ natBits 4 h.spare else [])))

end Verif.Spec
