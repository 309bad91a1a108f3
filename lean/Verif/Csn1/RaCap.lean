import Verif.Csn1.LayMsg
import Verif.Spec.RaCap

/-!
# MS Radio Access capability: the information element on its own

The public functions for the value part of the information element of 3GPP TS 24.008, 10.5.5.12a, in a
buffer of any number of octets.
-/
namespace Verif.Csn1

open Spec

/-- `osmo_gprs_rlcmac_encode_ms_ra_cap` (`csn1_ts_24_008.c:373-392`) of the structure at address 0, into a
vector of `n` octets with the bits `vec`.  `.ok`: the function returns 0. -/
def encodeRaCap (m : Mem) (n : Nat) (vec : Nat → Bool) : CRes ESt :=
  encDone (encL m (8 * n) 0 t_MS_Radio_Access_capability {} { vec := vec, wi := 0, bo := 0, rem := ((8 * n : Nat) : Int) })

/-- `osmo_gprs_rlcmac_decode_ms_ra_cap` (`csn1_ts_24_008.c:350-371`) of `n` octets with the bits `v`: a
positive number of bits left is no error.  Stores outside a member are undefined behaviour. -/
def decodeRaCap (v : List Bool) (n : Nat) (m : Mem) : CRes CSt :=
  decL v .member 0 t_MS_Radio_Access_capability {} { mem := m, rd := 0, bo := 0, rem := 8 * n }

/-! ## Lemmas -/

/-- Padding up to the end of a vector of whole octets. -/
theorem padE_whole {len : Nat} (hlen : len % 8 = 0) (s : ESt) (h : (s.wi : Int) + s.rem = len) (hr : 0 ≤ s.rem) (i : Nat)
    (h1 : s.wi ≤ i) (h2 : i < len) :
    (padE len s.rem.toNat s).vec i = (decide (i ≠ s.wi) && Nat.testBit 0x2B (7 - i % 8)) := by
  obtain ⟨r, hr'⟩ : ∃ r : Nat, s.rem = r := ⟨s.rem.toNat, by omega⟩
  rw [hr', Int.toNat_natCast]
  have hw : s.wi + r = len := by omega
  by_cases hm : r % 8 = 0
  · have hk := padE_octets len (r / 8) r s (by omega) (by omega) (by omega) i h1 h2
    rw [hk]
    have : s.wi % 8 = 0 := by omega
    rw [show (i - s.wi) % 8 = i % 8 by omega]
    by_cases he : i = s.wi
    · subst he
      rw [this]; simp; decide
    · simp [he]
  · obtain ⟨f, rfl⟩ : ∃ f, r = f + 1 := ⟨r - 1, by omega⟩
    unfold padE
    rw [if_neg (by omega)]
    dsimp only
    rw [hr', Int.toNat_natCast, if_pos (by omega)]
    generalize hn : (f + 1) % 8 = n at *
    have hwi : (s.put len (0x2B % 2 ^ (n - 1)) n).wi = s.wi + n := by unfold ESt.put; dsimp only; rw [if_pos (by omega)]
    by_cases hlt : i < s.wi + n
    · have := (padE_low len f ((s.put len (0x2B % 2 ^ (n - 1)) n).took n) (by show 0 ≤ s.rem - (n : Nat); omega)
        (by show (s.rem - (n : Nat)).toNat ≤ f; omega)).2 i (by show i < (s.put len (0x2B % 2 ^ (n - 1)) n).wi; omega)
      rw [this]
      show (s.put len (0x2B % 2 ^ (n - 1)) n).vec i = _
      unfold ESt.put; dsimp only
      rw [if_pos ⟨h1, hlt, h2⟩, Nat.testBit_mod_two_pow]
      have he : s.wi + n - 1 - i = 7 - i % 8 := by omega
      rw [he]
      congr 1
      rw [decide_eq_decide]
      omega
    · rw [padE_octets len (f / 8) f ((s.put len (0x2B % 2 ^ (n - 1)) n).took n) (by show s.rem - (n : Nat) = _; omega)
        (by omega) (by show (s.put len (0x2B % 2 ^ (n - 1)) n).wi + _ = _; omega) i
        (by show (s.put len (0x2B % 2 ^ (n - 1)) n).wi ≤ i; omega) h2]
      show Nat.testBit 0x2B (7 - (i - (s.put len (0x2B % 2 ^ (n - 1)) n).wi) % 8) = _
      rw [show (7 - (i - (s.put len (0x2B % 2 ^ (n - 1)) n).wi) % 8) = 7 - i % 8 by omega]
      have : i ≠ s.wi := by omega
      simp [this]

theorem encodeRaCap_parts {m : Mem} {n : Nat} {vec : Nat → Bool} {l : List Item} (h : raParts m = some l)
    (hf : ∀ i ∈ l, i.Fits m) (hs : size l ≤ 8 * n) :
    ∃ s, encodeRaCap m n vec = .ok s ∧ Reads (s.bits (8 * n)) 0 (code m l) ∧
      (skew l = 0 → ∀ i, size l ≤ i → i < 8 * n →
        (s.bits (8 * n))[i]? = some (decide (i ≠ size l) && Nat.testBit 0x2B (7 - i % 8))) := by
  unfold raParts at h
  obtain ⟨s, he, hw, hr⟩ := encL_lay m (8 * n) [.recTArr1 1 759 69 11 0 t_MS_RA_capability_value] 0 {} [] l
    { vec := vec, wi := 0, bo := 0, rem := ((8 * n : Nat) : Int) }
    [.padding] h hf (by show 0 + size l ≤ 8 * n; omega) (by show ((size l : Nat) : Int) ≤ ((8 * n : Nat) : Int); omega)
  have hwi : s.wi = size l := by rw [hw.wi]; exact Nat.zero_add _
  have hr : s.rem = ((8 * n : Nat) : Int) - ((size l : Nat) : Int) + ((skew l : Nat) : Int) := hr
  have h0 : 0 ≤ s.rem := by omega
  obtain ⟨p1, p2⟩ := padE_low (8 * n) s.rem.toNat s h0 (Nat.le_refl _)
  refine ⟨padE (8 * n) s.rem.toNat s, ?_, ?_, fun hk i h1 h2 => ?_⟩
  · unfold encodeRaCap
    rw [show t_MS_Radio_Access_capability = [.recTArr1 1 759 69 11 0 t_MS_RA_capability_value] ++ [.padding] from rfl, he]
    have hp : encL m (8 * n) 0 [.padding] {} s = .ok (padE (8 * n) s.rem.toNat s) := by
      have : encL m (8 * n) 0 [.padding] {} s = (encD m (8 * n) false 0 .padding s >>= fun s => encL m (8 * n) 0 [] {} s) := by
        conv => lhs; unfold encL
        rw [if_neg (by simp)]
        dsimp only
        rw [if_neg (by omega)]
      rw [this]
      have : encD m (8 * n) false 0 .padding s = .ok (padE (8 * n) s.rem.toNat s) := by
        unfold encD
        rw [if_neg (by simp), if_neg (by omega)]
      rw [this, CRes.bind_ok, encL_end (by omega)]
    rw [hp]
    unfold encDone
    dsimp only
    rw [if_neg (by omega)]
  · intro k b hk
    have hk' : k < size l := by
      rw [← code_length m]
      exact (List.getElem?_eq_some_iff.mp hk).1
    rw [Nat.zero_add, bits_get (by omega), p2 k (by omega)]
    have := hw.bits k b hk
    rw [show (0 : Nat) + k = k from Nat.zero_add k] at this
    rw [this]
  · rw [bits_get h2, padE_whole (by omega) s (by omega) h0 i (by omega) h2, hwi]

theorem decodeRaCap_parts {v : List Bool} {m m0 : Mem} {n : Nat} {l : List Item} (h : raParts m = some l)
    (hf : ∀ i ∈ l, i.Fits m) (hs : size l ≤ 8 * n) (hr : Reads v 0 (code m l)) :
    ∃ s, decodeRaCap v n m0 = .ok s ∧ s.mem = upd m l m0 := by
  exact dec_parts (v := v) (s := { mem := m0, rd := 0, bo := 0, rem := 8 * n }) h hf hr
    (by show ((size l : Nat) : Int) ≤ 8 * (n : Int); omega)

end Verif.Csn1
