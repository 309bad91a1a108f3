import Verif.Llc.Entity

/-!
# Specification: default values of LLC parameters, 3GPP TS 44.064, Table 9

One row of the table for each parameter; parameters that do not apply are 0.  The exponent 27 of the IOV is that of
the acknowledged mode, on the SAPIs which have one.
-/
namespace Verif.Spec

open Verif.Llc

/-- The SAPIs of the table: LLGMM, TOM2, LL3, LL5, SMS, TOM8, LL9, LL11. -/
def table9Sapis : List Nat := [1, 2, 3, 5, 7, 8, 9, 11]

/-- The entry for SAPI `s` in a row. -/
def inRow (row : List Nat) (s : Nat) : Nat := ((table9Sapis.zip row).find? fun e => e.1 == s).elim 0 Prod.snd

def table9 (s : Nat) : Params where
  --                1    2    3     5     7    8    9     11
  t200 := inRow    [5,   5,   5,    10,   20,  20,  20,   40] s
  n200 := inRow    [3,   3,   3,    3,    3,   3,   3,    3] s
  n201u := inRow   [400, 270, 500,  500,  270, 270, 500,  500] s
  n201i := inRow   [0,   0,   1503, 1503, 0,   0,   1503, 1503] s
  mD := inRow      [0,   0,   1520, 760,  0,   0,   380,  190] s
  mU := inRow      [0,   0,   1520, 760,  0,   0,   380,  190] s
  kD := inRow      [0,   0,   16,   8,    0,   0,   4,    2] s
  kU := inRow      [0,   0,   16,   8,    0,   0,   4,    2] s
  iovIExp := inRow [0,   0,   27,   27,   0,   0,   27,   27] s

end Verif.Spec
