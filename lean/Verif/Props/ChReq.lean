import Verif.Csn1.ChReq
import Verif.Csn1.LayDec
import Verif.Spec.ChReq

/-!
C175: EGPRS packet channel requests.
-/

set_option linter.unusedSimpArgs false

namespace Verif.Props
open Verif Verif.Spec Verif.Csn1

/-- How the structure tells a request: the type and the members for it. -/
def ReqSays (s : CSt) : ChReq → Prop
  | .onePhase m p r => s.byte 0 = 0 ∧ s.byte 2 = m ∧ s.byte 4 = p ∧ s.byte 5 = r
  | .shortAccess n p r => s.byte 0 = 1 ∧ s.byte 3 = n ∧ s.byte 4 = p ∧ s.byte 5 = r
  | .reducedLatency g p r => s.byte 0 = 2 ∧ s.byte 1 = g ∧ s.byte 4 = p ∧ s.byte 5 = r
  | .twoPhase p r => s.byte 0 = 3 ∧ s.byte 4 = p ∧ s.byte 5 = r
  | .signalling r => s.byte 0 = 4 ∧ s.byte 5 = r
  | .unackOnePhase r => s.byte 0 = 5 ∧ s.byte 5 = r
  | .dedicated r => s.byte 0 = 6 ∧ s.byte 5 = r
  | .emergency r => s.byte 0 = 7 ∧ s.byte 5 = r
  | .twoPhaseIpa p r => s.byte 0 = 8 ∧ s.byte 4 = p ∧ s.byte 5 = r
  | .signallingIpa r => s.byte 0 = 9 ∧ s.byte 5 = r

theorem bitsVal_mid (v : List Bool) (i n k : Nat) (h : i + n ≤ k) : bitsVal v i n = bitsVal v 0 k / 2 ^ (k - i - n) % 2 ^ n := by
  obtain ⟨j, rfl⟩ : ∃ j, k = i + n + j := ⟨k - (i + n), by omega⟩
  have h1 := bitsVal_split (v := v) (i + n) j 0
  have h2 := bitsVal_split (v := v) i n 0
  have h3 : bitsVal v (0 + (i + n)) j < 2 ^ j := bitsVal_lt v j _
  rw [h1, show i + n + j - i - n = j by omega, Nat.mul_comm, Nat.mul_add_div (Nat.two_pow_pos j), Nat.div_eq_of_lt h3, Nat.add_zero, h2,
    Nat.mul_comm, Nat.mul_add_mod, Nat.zero_add, Nat.mod_eq_of_lt (bitsVal_lt v n _)]

theorem reads_self (l : List Bool) : Reads l 0 l := fun k b h => by rw [Nat.zero_add]; exact h

theorem chReqBits_val (ra : Nat) : bitsVal (chReqBits ra) 0 16 = ra % 2048 * 32 := by
  have a : bitsVal (chReqBits ra) 0 8 = ra / 8 % 256 := by
    refine bitsVal_reads (n := 8) (x := ra / 8 % 256) ?_ (by omega)
    exact (Reads.append.1 (reads_self (natBits 8 (ra / 8 % 256) ++ natBits 8 (ra % 8 * 32)))).1
  have b : bitsVal (chReqBits ra) 8 8 = ra % 8 * 32 := by
    refine bitsVal_reads (n := 8) (x := ra % 8 * 32) ?_ (by omega)
    exact (Reads.append.1 (reads_self (natBits 8 (ra / 8 % 256) ++ natBits 8 (ra % 8 * 32)))).2
  have := bitsVal_split (v := chReqBits ra) 8 8 0
  rw [this, a, Nat.zero_add, b]
  omega

theorem chf (ra i n : Nat) (h : i + n ≤ 16) : bitsVal (chReqBits ra) i n = ra % 2048 * 32 / 2 ^ (16 - i - n) % 2 ^ n := by
  rw [bitsVal_mid _ i n 16 h, chReqBits_val]

/-- Stores are allowed anywhere in the structure. -/
def InReq (p : Pol) : Prop := p = .member ∨ ∃ n, p = .object n ∧ 6 ≤ n

theorem fits_store {p : Pol} (h : InReq p) (base off : Nat) (hb : base + off + 1 ≤ 6) : p.store base off 1 0 1 = true := by
  rcases h with rfl | ⟨n, rfl, hn⟩
  · rfl
  · simp only [Pol.store, decide_eq_true_eq]; omega


/-- **C175.** Whatever was in the memory and whatever the bits above the eleven are: every request of the table is told as what it is, and
only the members of the structure are written. -/
theorem c175 (p : Pol) (hp : InReq p) (m : Mem) (ra : Nat) (x : ChReq) (ok : x.Ok) (h : ra % 2048 = x.code) :
    ∃ s, decodeChReq p ra m = .ok s ∧ ReqSays s x := by
  cases x with
  | onePhase a b c =>
    obtain ⟨h1, h2, h3⟩ := ok
    simp only [ChReq.code] at h
    have e0 : ra % 2048 * 32 / 32768 % 2 = 0 := by omega
    have e1 : ra % 2048 * 32 / 1024 % 32 = a := by omega
    have e2 : ra % 2048 * 32 / 256 % 4 = b := by omega
    have e3 : ra % 2048 * 32 / 32 % 8 = c := by omega
    simp [decodeChReq, t_EGPRS_PacketChannelRequest, s_EGPRS_PacketChannelRequest_Choice, c_EGPRS_PacketChannelRequest_Choice,
      t_PacketChannelRequest_MC5P2RB3, decL, decD, decC, wr, fits_store hp, chf, CSt.take, Mem.putLe, uintW, ReqSays, CSt.byte, Mem.put, e0, e1, e2, e3]
    omega
  | shortAccess a b c =>
    obtain ⟨h1, h2, h3⟩ := ok
    simp only [ChReq.code] at h
    have e0 : ra % 2048 * 32 / 32768 % 2 = 1 := by omega
    have e1 : ra % 2048 * 32 / 8192 % 8 = 4 := by omega
    have e2 : ra % 2048 * 32 / 1024 % 8 = a := by omega
    have e3 : ra % 2048 * 32 / 256 % 4 = b := by omega
    have e4 : ra % 2048 * 32 / 32 % 8 = c := by omega
    simp [decodeChReq, t_EGPRS_PacketChannelRequest, s_EGPRS_PacketChannelRequest_Choice, c_EGPRS_PacketChannelRequest_Choice,
      t_PacketChannelRequest_NOB3P2RB3, decL, decD, decC, wr, fits_store hp, chf, CSt.take, Mem.putLe, uintW, ReqSays, CSt.byte, Mem.put, e0, e1, e2, e3, e4]
    omega
  | reducedLatency a b c =>
    obtain ⟨h1, h2, h3⟩ := ok
    simp only [ChReq.code] at h
    have e0 : ra % 2048 * 32 / 32768 % 2 = 1 := by omega
    have e1 : ra % 2048 * 32 / 8192 % 8 = 5 := by omega
    have e2 : ra % 2048 * 32 / 1024 % 8 = a := by omega
    have e3 : ra % 2048 * 32 / 256 % 4 = b := by omega
    have e4 : ra % 2048 * 32 / 32 % 8 = c := by omega
    simp [decodeChReq, t_EGPRS_PacketChannelRequest, s_EGPRS_PacketChannelRequest_Choice, c_EGPRS_PacketChannelRequest_Choice,
      t_PacketChannelRequest_MCG3P2RB3, decL, decD, decC, wr, fits_store hp, chf, CSt.take, Mem.putLe, uintW, ReqSays, CSt.byte, Mem.put, e0, e1, e2, e3, e4]
    omega
  | twoPhase b c =>
    obtain ⟨h1, h2⟩ := ok
    simp only [ChReq.code] at h
    have e0 : ra % 2048 * 32 / 32768 % 2 = 1 := by omega
    have e1 : ra % 2048 * 32 / 8192 % 8 = 6 := by omega
    have e2 : ra % 2048 * 32 / 1024 % 64 = 48 := by omega
    have e3 : ra % 2048 * 32 / 256 % 4 = b := by omega
    have e4 : ra % 2048 * 32 / 32 % 8 = c := by omega
    simp [decodeChReq, t_EGPRS_PacketChannelRequest, s_EGPRS_PacketChannelRequest_Choice, c_EGPRS_PacketChannelRequest_Choice,
      t_PacketChannelRequest_P2RB3, decL, decD, decC, wr, fits_store hp, chf, CSt.take, Mem.putLe, uintW, ReqSays, CSt.byte, Mem.put, e0, e1, e2, e3, e4]
    omega
  | signalling c =>
    have h1 : c < 32 := ok
    simp only [ChReq.code] at h
    have e0 : ra % 2048 * 32 / 32768 % 2 = 1 := by omega
    have e1 : ra % 2048 * 32 / 8192 % 8 = 6 := by omega
    have e2 : ra % 2048 * 32 / 1024 % 64 = 51 := by omega
    have e3 : ra % 2048 * 32 / 32 % 32 = c := by omega
    simp [decodeChReq, t_EGPRS_PacketChannelRequest, s_EGPRS_PacketChannelRequest_Choice, c_EGPRS_PacketChannelRequest_Choice,
      t_PacketChannelRequest_RB5, decL, decD, decC, wr, fits_store hp, chf, CSt.take, Mem.putLe, uintW, ReqSays, CSt.byte, Mem.put, e0, e1, e2, e3]
    omega
  | unackOnePhase c =>
    have h1 : c < 32 := ok
    simp only [ChReq.code] at h
    have e0 : ra % 2048 * 32 / 32768 % 2 = 1 := by omega
    have e1 : ra % 2048 * 32 / 8192 % 8 = 6 := by omega
    have e2 : ra % 2048 * 32 / 1024 % 64 = 53 := by omega
    have e3 : ra % 2048 * 32 / 32 % 32 = c := by omega
    simp [decodeChReq, t_EGPRS_PacketChannelRequest, s_EGPRS_PacketChannelRequest_Choice, c_EGPRS_PacketChannelRequest_Choice,
      t_PacketChannelRequest_RB5, decL, decD, decC, wr, fits_store hp, chf, CSt.take, Mem.putLe, uintW, ReqSays, CSt.byte, Mem.put, e0, e1, e2, e3]
    omega
  | dedicated c =>
    have h1 : c < 32 := ok
    simp only [ChReq.code] at h
    have e0 : ra % 2048 * 32 / 32768 % 2 = 1 := by omega
    have e1 : ra % 2048 * 32 / 8192 % 8 = 6 := by omega
    have e2 : ra % 2048 * 32 / 1024 % 64 = 54 := by omega
    have e3 : ra % 2048 * 32 / 32 % 32 = c := by omega
    simp [decodeChReq, t_EGPRS_PacketChannelRequest, s_EGPRS_PacketChannelRequest_Choice, c_EGPRS_PacketChannelRequest_Choice,
      t_PacketChannelRequest_RB5, decL, decD, decC, wr, fits_store hp, chf, CSt.take, Mem.putLe, uintW, ReqSays, CSt.byte, Mem.put, e0, e1, e2, e3]
    omega
  | emergency c =>
    have h1 : c < 32 := ok
    simp only [ChReq.code] at h
    have e0 : ra % 2048 * 32 / 32768 % 2 = 1 := by omega
    have e1 : ra % 2048 * 32 / 8192 % 8 = 6 := by omega
    have e2 : ra % 2048 * 32 / 1024 % 64 = 55 := by omega
    have e3 : ra % 2048 * 32 / 32 % 32 = c := by omega
    simp [decodeChReq, t_EGPRS_PacketChannelRequest, s_EGPRS_PacketChannelRequest_Choice, c_EGPRS_PacketChannelRequest_Choice,
      t_PacketChannelRequest_RB5, decL, decD, decC, wr, fits_store hp, chf, CSt.take, Mem.putLe, uintW, ReqSays, CSt.byte, Mem.put, e0, e1, e2, e3]
    omega
  | twoPhaseIpa b c =>
    obtain ⟨h1, h2⟩ := ok
    simp only [ChReq.code] at h
    have e0 : ra % 2048 * 32 / 32768 % 2 = 1 := by omega
    have e1 : ra % 2048 * 32 / 8192 % 8 = 7 := by omega
    have e2 : ra % 2048 * 32 / 1024 % 64 = 56 := by omega
    have e3 : ra % 2048 * 32 / 256 % 4 = b := by omega
    have e4 : ra % 2048 * 32 / 32 % 8 = c := by omega
    simp [decodeChReq, t_EGPRS_PacketChannelRequest, s_EGPRS_PacketChannelRequest_Choice, c_EGPRS_PacketChannelRequest_Choice,
      t_PacketChannelRequest_P2RB3, decL, decD, decC, wr, fits_store hp, chf, CSt.take, Mem.putLe, uintW, ReqSays, CSt.byte, Mem.put, e0, e1, e2, e3, e4]
    omega
  | signallingIpa c =>
    have h1 : c < 32 := ok
    simp only [ChReq.code] at h
    have e0 : ra % 2048 * 32 / 32768 % 2 = 1 := by omega
    have e1 : ra % 2048 * 32 / 8192 % 8 = 7 := by omega
    have e2 : ra % 2048 * 32 / 1024 % 64 = 57 := by omega
    have e3 : ra % 2048 * 32 / 32 % 32 = c := by omega
    simp [decodeChReq, t_EGPRS_PacketChannelRequest, s_EGPRS_PacketChannelRequest_Choice, c_EGPRS_PacketChannelRequest_Choice,
      t_PacketChannelRequest_RB5, decL, decD, decC, wr, fits_store hp, chf, CSt.take, Mem.putLe, uintW, ReqSays, CSt.byte, Mem.put, e0, e1, e2, e3]
    omega

/-- Anything else is refused. -/
theorem c175_refused (p : Pol) (m : Mem) (ra : Nat) (h : ∀ x : ChReq, x.Ok → x.code ≠ ra % 2048) :
    decodeChReq p ra m = .fail errUnsupported := by
  obtain ⟨y, hy⟩ : ∃ y, y = ra % 2048 := ⟨_, rfl⟩
  have hlt : y < 2048 := by omega
  rw [← hy] at h
  have e0 : y * 32 / 32768 % 2 ≠ 0 := fun e => h (.onePhase (y / 32) (y / 8 % 4) (y % 8)) ⟨by omega, by omega, by omega⟩ (by
    simp only [ChReq.code]; omega)
  have e1 : y * 32 / 8192 % 8 ≠ 4 := fun e => h (.shortAccess (y / 32 % 8) (y / 8 % 4) (y % 8)) ⟨by omega, by omega, by omega⟩ (by
    simp only [ChReq.code]; omega)
  have e2 : y * 32 / 8192 % 8 ≠ 5 := fun e => h (.reducedLatency (y / 32 % 8) (y / 8 % 4) (y % 8)) ⟨by omega, by omega, by omega⟩ (by
    simp only [ChReq.code]; omega)
  have e3 : y * 32 / 1024 % 64 ≠ 48 := fun e => h (.twoPhase (y / 8 % 4) (y % 8)) ⟨by omega, by omega⟩ (by
    simp only [ChReq.code]; omega)
  have e8 : y * 32 / 1024 % 64 ≠ 56 := fun e => h (.twoPhaseIpa (y / 8 % 4) (y % 8)) ⟨by omega, by omega⟩ (by
    simp only [ChReq.code]; omega)
  have e4 : y * 32 / 1024 % 64 ≠ 51 := fun e => h (.signalling (y % 32)) (show y % 32 < 32 by omega) (by simp only [ChReq.code]; omega)
  have e5 : y * 32 / 1024 % 64 ≠ 53 := fun e => h (.unackOnePhase (y % 32)) (show y % 32 < 32 by omega) (by simp only [ChReq.code]; omega)
  have e6 : y * 32 / 1024 % 64 ≠ 54 := fun e => h (.dedicated (y % 32)) (show y % 32 < 32 by omega) (by simp only [ChReq.code]; omega)
  have e7 : y * 32 / 1024 % 64 ≠ 55 := fun e => h (.emergency (y % 32)) (show y % 32 < 32 by omega) (by simp only [ChReq.code]; omega)
  have e9 : y * 32 / 1024 % 64 ≠ 57 := fun e => h (.signallingIpa (y % 32)) (show y % 32 < 32 by omega) (by simp only [ChReq.code]; omega)
  simp [decodeChReq, t_EGPRS_PacketChannelRequest, s_EGPRS_PacketChannelRequest_Choice, c_EGPRS_PacketChannelRequest_Choice,
    decL, decD, decC, chf, ← hy, e0, e1, e2, e3, e4, e5, e6, e7, e8, e9]

/-- A short access for three blocks with priority 2; bits above the eleven are set. -/
example : ∃ s, decodeChReq .member (0b11111 * 2048 + 0b10001110110) (fun _ => 0xff) = .ok s ∧ ReqSays s (.shortAccess 3 2 6) :=
  c175 .member (Or.inl rfl) _ _ _ ⟨by decide, by decide, by decide⟩ rfl

/-- A code that is not used. -/
example : decodeChReq .member 0b11000100000 (fun _ => 0) = .fail errUnsupported := by
  refine c175_refused _ _ _ fun x ok h => ?_
  cases x <;> simp only [ChReq.Ok] at ok <;> simp only [ChReq.code] at h <;> omega

end Verif.Props
