import Verif.Rlc.WindowUl
import Verif.Rlc.WindowDl
/-!
# What the RLC windows say about themselves
-/
namespace Verif.Rlc

/-- The loop of `gprs_rlcmac_rlc_ul_window_count_unacked`, /repo/src/rlcmac/rlc_window_ul.c:345-350; rounds bounded as
in `UlWin.resendLoop`. -/
def UlWin.countLoop (w : UlWin) : Nat → Nat → Nat
  | 0, _ => 0
  | f + 1, bsn =>
    if bsn = w.vs then 0
    else (if w.state bsn ≠ .acked then 1 else 0) + UlWin.countLoop w f (modSns (bsn + 1))

/-- `gprs_rlcmac_rlc_ul_window_count_unacked`, /repo/src/rlcmac/rlc_window_ul.c:339-353. -/
def UlWin.countUnacked (w : UlWin) : Nat := w.countLoop sns w.va

/-- The letter for a state, /repo/src/rlcmac/rlc_window_ul.c:319-334. -/
def showChar : UlState → Char
  | .invalid => 'I' | .acked => 'A' | .resend => 'X' | .nacked => 'N' | .unacked => '?'

/-- The loop of `gprs_rlcmac_rlc_ul_window_show_state`, /repo/src/rlcmac/rlc_window_ul.c:315-335: the letters written to
the buffer of 129 octets. -/
def UlWin.showLoop (w : UlWin) : Nat → Nat → List Char
  | 0, _ => []
  | f + 1, bsn => if bsn = w.vs then [] else showChar (w.state bsn) :: UlWin.showLoop w f (modSns (bsn + 1))

/-- `gprs_rlcmac_rlc_ul_window_show_state`, /repo/src/rlcmac/rlc_window_ul.c:309-337, without the zero at the end. -/
def UlWin.showState (w : UlWin) : List Char := w.showLoop sns w.va

/-- The loop of `gprs_rlcmac_rlc_dl_window_update_rbb_egprs`, /repo/src/rlcmac/rlc_window_dl.c:189-202.  The bits in the
order they are written; `pos` and `bitmask` always name the bit behind the previous one. -/
def DlWin.rbbEgLoop (w : DlWin) : Nat → Nat → List Bool
  | 0, _ => []
  | f + 1, bsn => if bsn < w.vr then w.isReceivedVn bsn :: DlWin.rbbEgLoop w f (modSns (bsn + 1)) else []

/-- `gprs_rlcmac_rlc_dl_window_update_rbb_egprs`, /repo/src/rlcmac/rlc_window_dl.c:179-204; its result is the length. -/
def DlWin.rbbEgprs (w : DlWin) : List Bool := w.rbbEgLoop ws (w.vq + 1)

end Verif.Rlc
