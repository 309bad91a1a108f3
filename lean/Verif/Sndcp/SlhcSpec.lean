import Verif.Spec.IpPacket
import Verif.Sndcp.SlhcSafe

/-!
# Header compression: packets of the specification are packets of the proofs
-/
namespace Verif.Slhc

open Spec.IpPacket

theorem get16_word (p : List UInt8) (i : Nat) : (get16 p i).toNat = word p i := by
  have h1 := (p.getD i 0).toNat_lt
  have h2 := (p.getD (i + 1) 0).toNat_lt
  unfold get16 word octet
  rw [UInt16.toNat_ofNat']
  omega

theorem get32_long (p : List UInt8) (i : Nat) : (get32 p i).toNat = long p i := by
  have h1 := (get16 p i).toNat_lt
  have h2 := (get16 p (i + 2)).toNat_lt
  unfold get32 long
  rw [UInt32.toNat_ofNat', ← get16_word, ← get16_word]
  omega

theorem word_drop (p : List UInt8) (k i : Nat) : word (p.drop k) i = word p (k + i) := by
  unfold word octet
  rw [List.getD_eq_getElem?_getD, List.getD_eq_getElem?_getD, List.getD_eq_getElem?_getD, List.getD_eq_getElem?_getD,
    List.getElem?_drop, List.getElem?_drop, Nat.add_assoc]

theorem octet_drop (p : List UInt8) (k i : Nat) : octet (p.drop k) i = octet p (k + i) := by
  unfold octet
  rw [List.getD_eq_getElem?_getD, List.getD_eq_getElem?_getD, List.getElem?_drop]

theorem ipLen_eq (p : List UInt8) : (Ip.read p).ihl * 4 = ipLen p := by
  show (p.getD 0 0).toNat % 16 * 4 = 4 * ((p.getD 0 0).toNat % 16)
  omega

theorem tcpLen_eq (p : List UInt8) : (Tcp.read (p.drop (ipLen p))).doff * 4 = tcpLen p := by
  show octet (p.drop (ipLen p)) 12 / 16 * 4 = _
  rw [octet_drop]
  unfold tcpLen
  omega

theorem wordSum_take : ∀ (m : Nat) (p : List UInt8), 2 * m ≤ p.length → wordSum (p.take (2 * m)) = ((List.range m).map fun i => word p (2 * i)).sum
  | 0, _, _ => rfl
  | m + 1, [], h => by simp at h
  | m + 1, [_], h => by simp at h; omega
  | m + 1, a :: b :: p, h => by
    have ih := wordSum_take m p (by simp only [List.length_cons] at h; omega)
    rw [show 2 * (m + 1) = 2 * m + 1 + 1 from by omega, List.take_succ_cons, List.take_succ_cons, wordSum, ih, List.range_succ_eq_map,
      List.map_cons, List.sum_cons, List.map_map]
    have e : ((fun i => word (a :: b :: p) (2 * i)) ∘ Nat.succ) = fun i => word p (2 * i) := by
      funext i
      show word (a :: b :: p) (2 * (i + 1)) = _
      rw [show 2 * (i + 1) = 2 * i + 1 + 1 from by omega]
      rfl
    rw [e]
    rfl

theorem and_3fff {x : UInt16} : x &&& 0x3fff = 0 ↔ x.toNat % 16384 = 0 := by
  have h : (x &&& 0x3fff).toNat = x.toNat % 16384 := by
    rw [UInt16.toNat_and]
    exact Nat.and_two_pow_sub_one_eq_mod x.toNat 14
  constructor
  · intro e
    rw [← h, e]; rfl
  · intro e
    apply u16_ext
    rw [h, e]; rfl

theorem flag32 (x : UInt8) : flag x 32 = decide (x.toNat / 32 % 2 = 1) := by
  have : ∀ n : Fin 256, flag (UInt8.ofNat n.val) 32 = decide (n.val / 32 % 2 = 1) := by decide +kernel
  have h := this ⟨x.toNat, x.toNat_lt⟩
  rw [UInt8.ofNat_toNat] at h
  exact h

/-- For the connections of the proofs. -/
def liftF (f : Nat × Nat × Nat × Nat → Nat × Nat × Nat) : Conn → Nat × Nat × Nat :=
  fun c => f (c.1.toNat, c.2.1.toNat, c.2.2.1.toNat, c.2.2.2.toNat)

theorem good_of {f : Nat × Nat × Nat × Nat → Nat × Nat × Nat} {p : List UInt8} (h : WellFormed p)
    (ht : IsTcp p → ¬ Urgent p ∧ marks p = f (connection p) ∧ dataLen p ≤ 32767) : Good (liftF f) p := by
  obtain ⟨h1, h2, h3, h4, h5, h6, h7⟩ := h
  have e1 := ipLen_eq p
  refine ⟨h1, by omega, by omega, ?_, ?_, ?_, ?_⟩
  · rw [← h4]; exact get16_word p 2
  · rw [e1]
    have e2 : 2 * (ipLen p / 2) = ipLen p := by unfold ipLen; omega
    have e3 := wordSum_take (ipLen p / 2) p (by omega)
    rw [e2] at e3
    rw [e3]; exact h5
  · show (get16 p 10).toNat ≠ _
    rw [get16_word]; exact h6
  · intro hp hf
    have hT : IsTcp p := by
      refine ⟨?_, ?_⟩
      · show (Ip.read p).proto.toNat = 6
        rw [hp]; rfl
      · rw [← get16_word]
        exact and_3fff.1 hf
    obtain ⟨t1, t2⟩ := h7 hT
    obtain ⟨t3, t4, t5⟩ := ht hT
    rw [e1]
    have e4 := tcpLen_eq p
    unfold dataLen at t5
    refine ⟨by omega, by omega, by omega, by omega, ?_, ?_⟩
    · rw [flag32]
      refine decide_eq_false ?_
      show ¬ octet (p.drop (ipLen p)) 13 / 32 % 2 = 1
      rw [octet_drop]; exact t3
    · have c1 : (connOf (Ip.read p) (Tcp.read (p.drop (ipLen p)))).1.toNat = long p 12 := get32_long p 12
      have c2 : (connOf (Ip.read p) (Tcp.read (p.drop (ipLen p)))).2.1.toNat = long p 16 := get32_long p 16
      have c3 : (connOf (Ip.read p) (Tcp.read (p.drop (ipLen p)))).2.2.1.toNat = word p (ipLen p) :=
        (get16_word (p.drop (ipLen p)) 0).trans (word_drop p _ 0)
      have c4 : (connOf (Ip.read p) (Tcp.read (p.drop (ipLen p)))).2.2.2.toNat = word p (ipLen p + 2) :=
        (get16_word (p.drop (ipLen p)) 2).trans (word_drop p _ 2)
      unfold liftF
      rw [c1, c2, c3, c4]
      refine Eq.trans ?_ t4
      show ((get16 p 6).toNat / 32768, octet (p.drop (ipLen p)) 12 % 16, octet (p.drop (ipLen p)) 13 / 64) = _
      rw [get16_word, octet_drop, octet_drop]
      rfl

end Verif.Slhc
