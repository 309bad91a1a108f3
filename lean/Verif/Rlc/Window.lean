import Verif.Basic

/-!
# RLC windows: what the uplink and the downlink window share

/repo/src/rlcmac/rlc_window.c.  The sequence number space and the window size are set once, by the
constructor (/repo/src/rlcmac/rlc_window.c:25-29), to 128 and 64; `gprs_rlcmac_rlc_window_set_sns` and
`gprs_rlcmac_rlc_window_set_ws` are called nowhere in /repo.  They are constants of the model.
-/
namespace Verif.Rlc

/-- `RLC_GPRS_SNS`, /repo/include/osmocom/gprs/rlcmac/rlc.h:9. -/
def sns : Nat := 128

/-- `GPRS_RLCMAC_GPRS_WS`, /repo/include/osmocom/gprs/rlcmac/rlc_window.h:6. -/
def ws : Nat := 64

/-- `gprs_rlcmac_rlc_window_mod_sns_bsn`, /repo/src/rlcmac/rlc_window.c:36-44. -/
def modSns (bsn : Nat) : Nat := bsn &&& (sns - 1)

/-- The `uint16_t`/`int` difference `a - b` as far as the low 16 bits go (both operands are
`uint16_t`); it is always masked afterwards. -/
def sub16 (a b : Nat) : Nat := a + 65536 - b

/-- Array index of a BSN, `bsn & mod_sns_half()`: /repo/include/osmocom/gprs/rlcmac/rlc.h:81-84. -/
def idx (bsn : Nat) : Nat := bsn &&& (2048 / 2 - 1)

theorem modSns_eq (n : Nat) : modSns n = n % 128 := by
  show n &&& (2 ^ 7 - 1) = n % 2 ^ 7
  exact Nat.and_two_pow_sub_one_eq_mod n 7

theorem idx_eq (n : Nat) : idx n = n % 1024 := by
  show n &&& (2 ^ 10 - 1) = n % 2 ^ 10
  exact Nat.and_two_pow_sub_one_eq_mod n 10

/-- An array with one entry replaced (`a[i] = x`). -/
def upd {α : Type} (a : Nat → α) (i : Nat) (x : α) : Nat → α := fun j => if j = i then x else a j

@[simp] theorem upd_same {α : Type} (a : Nat → α) (i : Nat) (x : α) : upd a i x i = x := by simp [upd]

theorem upd_apply {α : Type} (a : Nat → α) (i j : Nat) (x : α) :
    upd a i x j = if j = i then x else a j := rfl

end Verif.Rlc
