import Verif.Spec.LlcXid
import Verif.Llc.Entity

/-!
# Specification: what an XID frame says (3GPP TS 44.064, 6.4.1.6 and 8.5.3)
-/
namespace Verif.Spec

open Verif.Llc

/-- The value the parameters give to type `t`, if they do. -/
def xidValue (t : Nat) (fs : List XidField) : Option Nat := (fs.find? fun f => f.type == t).map XidField.val

/-- The Layer-3 parameters, if there are any. -/
def xidL3 (fs : List XidField) : Option Octets := (fs.find? fun f => f.type == 11).map XidField.var

/-- Each parameter is given at most once. -/
def XidOnce (fs : List XidField) : Prop := (fs.map XidField.type).Nodup

/-- Is a primitive an LL-XID.ind? -/
def isXidInd : Out → Bool
  | .xidInd .. => true
  | _ => false

end Verif.Spec
