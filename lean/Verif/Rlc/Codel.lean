import Verif.Basic

/-!
# Model of the CoDel queue management, /repo/src/rlcmac/codel.c

Times are integers in nanoseconds: a normalised `struct timespec` stands for `tv_sec * 10^9 + tv_nsec`, and
`timespecadd`, `timespecsub`, `timespeccmp` and `timespecisset` for `+`, `-`, the order and `≠ 0`.  The 32 bit
limits of `count` and of the argument of `div` are left out (the interval is assumed below 2000 s).
-/
namespace Verif.Rlc

/-- `struct gprs_codel`, /repo/include/osmocom/gprs/rlcmac/codel.h:33-41. -/
structure Codel where
  dropping : Bool
  count : Nat
  firstAbove : Int
  dropNext : Int
  target : Int
  interval : Int
  maxpacket : Nat
  deriving DecidableEq, Repr

/-- `inv_sqrt_tab`, /repo/src/rlcmac/codel.c:30-45. -/
def invSqrtTab : List Nat := [
  255, 255, 181, 147, 128, 114, 104, 96, 90, 85, 80, 77, 73, 71, 68, 66, 64, 62, 60, 58,
  57, 55, 54, 53, 52, 51, 50, 49, 48, 47, 46, 45, 45, 44, 43, 43, 42, 42, 41, 40,
  40, 39, 39, 39, 38, 38, 37, 37, 36, 36, 36, 35, 35, 35, 34, 34, 34, 33, 33, 33,
  33, 32, 32, 32, 32, 31, 31, 31, 31, 30, 30, 30, 30, 29, 29, 29, 29, 29, 28, 28,
  28, 28, 28, 28, 27, 27, 27, 27, 27, 27, 26, 26, 26, 26, 26, 26, 26, 25, 25, 25,
  25, 25, 25, 25, 25, 24, 24, 24, 24, 24, 24, 24, 24, 24, 23, 23, 23, 23, 23, 23,
  23, 23, 23, 23, 22, 22, 22, 22, 22, 22, 22, 22, 22, 22, 22, 22, 21, 21, 21, 21,
  21, 21, 21, 21, 21, 21, 21, 21, 21, 20, 20, 20, 20, 20, 20, 20, 20, 20, 20, 20,
  20, 20, 20, 20, 19, 19, 19, 19, 19, 19, 19, 19, 19, 19, 19, 19, 19, 19, 19, 19,
  19, 19, 18, 18, 18, 18, 18, 18, 18, 18, 18, 18, 18, 18, 18, 18, 18, 18, 18, 18,
  18, 18, 18, 17, 17, 17, 17, 17, 17, 17, 17, 17, 17, 17, 17, 17, 17, 17, 17, 17,
  17, 17, 17, 17, 17, 17, 17]

/-- The factor chosen by `control_law`, /repo/src/rlcmac/codel.c:50-53. -/
def invSqrt (count : Nat) : Nat := if count ≥ invSqrtTab.length then 16 else invSqrtTab.getD count 0

/-- `control_law`, /repo/src/rlcmac/codel.c:27-63: computed in microseconds. -/
def Codel.controlLaw (s : Codel) : Int := s.interval / 1000 * invSqrt s.count / 256 * 1000

/-- `gprs_codel_set_interval`, /repo/src/rlcmac/codel.c:74-89, for an `int` argument. -/
def Codel.setInterval (s : Codel) (ms : Int) : Codel :=
  let ms := if ms ≤ 0 then 100 else ms
  { s with interval := ms * 1000000, target := ms * 13 / 256 * 1000000 }

/-- `gprs_codel_init`, /repo/src/rlcmac/codel.c:65-72, 91-98. -/
def Codel.init : Codel :=
  { Codel.setInterval ⟨false, 0, 0, 0, 0, 0, 0⟩ (-1) with maxpacket := 512 }

/-- The part of `gprs_codel_control` behind "Ok to drop", /repo/src/rlcmac/codel.c:132-168. -/
def Codel.okToDrop (s : Codel) (now : Int) : Codel × Bool :=
  if !s.dropping then
    let inDropCycle := decide (s.dropNext ≠ 0) && decide (now - s.dropNext < s.interval)
    let recently := inDropCycle || !decide (now - s.firstAbove < s.interval)
    if !recently then (s, false)
    else
      let count := if inDropCycle && decide (s.count > 2) then s.count - 2 else 1
      let s1 := { s with dropping := true, count := count, dropNext := now }
      ({ s1 with dropNext := s1.dropNext + s1.controlLaw }, true)
  else if now < s.dropNext then (s, false)
  else
    let s1 := { s with count := s.count + 1 }
    ({ s1 with dropNext := s1.dropNext + s1.controlLaw }, true)

/-- `gprs_codel_control`, /repo/src/rlcmac/codel.c:104-175, for a packet received at `recv` and taken out at
`now`, with `bytes` (not negative) octets still queued. -/
def Codel.control (s : Codel) (recv now : Int) (bytes : Nat) : Codel × Bool :=
  if now - recv < s.target then ({ s with firstAbove := 0, dropping := false }, false)
  else if bytes ≤ s.maxpacket then ({ s with firstAbove := 0, dropping := false }, false)
  else if s.firstAbove = 0 then ({ s with firstAbove := now + s.interval, dropping := false }, false)
  else if now < s.firstAbove then ({ s with dropping := false }, false)
  else s.okToDrop now

end Verif.Rlc
