import Verif.Basic
/-!
# GPRS timer values

src/gmm/misc.c:40-82.  `GPRS_TMR_2SECONDS`, `GPRS_TMR_MINUTE`, `GPRS_TMR_6MINUTE`, `GPRS_TMR_DEACTIVATED`,
`GPRS_TMR_FACT_MASK` and `GPRS_TMR_UNIT_MASK` come from libosmocore and have the values of TS 24.008
table 10.5.172: unit in the upper three bits, value in the lower five.
-/
namespace Verif.Gmm

/-- `GPRS_TMR_2SECONDS`. -/
def tmr2Seconds : Nat := 0x00
/-- `GPRS_TMR_MINUTE`. -/
def tmrMinute : Nat := 0x20
/-- `GPRS_TMR_6MINUTE`. -/
def tmr6Minute : Nat := 0x40
/-- `GPRS_TMR_DEACTIVATED`. -/
def tmrDeactivated : Nat := 0xe0
/-- `GPRS_TMR_FACT_MASK`. -/
def tmrFactMask : Nat := 0x1f
/-- `GPRS_TMR_UNIT_MASK`. -/
def tmrUnitMask : Nat := 0xe0

/-- `gprs_gmm_gprs_tmr_to_secs`, misc.c:41-54, of an octet. -/
def tmrToSecs (t : Nat) : Int :=
  if t &&& tmrUnitMask = tmr2Seconds then 2 * ((t &&& tmrFactMask : Nat) : Int)
  else if t &&& tmrUnitMask = tmr6Minute then 360 * ((t &&& tmrFactMask : Nat) : Int)
  else if t &&& tmrUnitMask = tmrDeactivated then -1
  else 60 * ((t &&& tmrFactMask : Nat) : Int)

/-- `gprs_gmm_secs_to_gprs_tmr_floor`, misc.c:64-82, of an `int`.  C division of a non-negative number. -/
def secsToTmr (secs : Int) : Nat :=
  if secs < 0 then tmrDeactivated
  else if secs < 2 * 32 then tmr2Seconds ||| secs.toNat / 2
  else if secs < 60 * 2 then tmr2Seconds ||| tmrFactMask
  else if secs < 60 * 32 then tmrMinute ||| secs.toNat / 60
  else if secs < 360 * 6 then tmrMinute ||| tmrFactMask
  else if secs < 360 * 32 then tmr6Minute ||| secs.toNat / 360
  else tmr6Minute ||| tmrFactMask

/-- What the callers make of a received value: `secs >= 0 ? secs : 0`, gmm.c:890, 915, 1042, 1105. -/
def tmrAssigned (t : Nat) : Nat := if 0 ≤ tmrToSecs t then (tmrToSecs t).toNat else 0

end Verif.Gmm
