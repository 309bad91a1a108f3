import Verif.Sndcp.Segment
import Verif.Spec.Sndcp
/-!
# Lemmas about the SNDCP segmentation model
-/
namespace Verif.Sndcp
open Verif.Spec.Sndcp

/-! ## Transmitter -/

theorem maxPayload_eq {n : Nat} (h4 : 4 ≤ n) (h : n < 65536) (first : Bool) :
    maxPayload n first = n - 3 - (if first then 1 else 0) := by
  have h1 : u32Sub n 3 = n - 3 := by unfold u32Sub; omega
  have h2 : u32Sub (n - 3) 1 = n - 3 - 1 := by unfold u32Sub; omega
  cases first <;> simp only [maxPayload, h1, h2, if_true, Bool.false_eq_true, if_false, Nat.sub_zero]

/-- The record described by the `i`-th fragment. -/
def fragRec (e : TxEnt) (fragNr : Nat) (rest : Octets) : SnPdu :=
  { first := fragNr == 0
    more := decide ((fragPdu e fragNr rest).1 < rest.length)
    nsapi := e.nsapi, npdu := e.txNpdu, seg := fragNr % 15
    payload := rest.take (fragPdu e fragNr rest).1 }

theorem fragPdu_encode {e : TxEnt} (hn : e.nsapi < 16) (ht : e.txNpdu < 4096) (k : Nat)
    (rest : Octets) : (fragPdu e k rest).2 = (fragRec e k rest).encode := by
  have h1 : e.nsapi % 16 = e.nsapi := by omega
  have h2 : e.txNpdu / 256 % 16 = e.txNpdu / 256 := by omega
  have h3 : k % 15 % 16 = k % 15 := by omega
  have h4 : compHdr 0 0 = 0 := by decide
  simp only [fragPdu, fragRec, SnPdu.encode, comHdr, udataHdr, h1, h2, h3, h4]
  simp only [List.cons_append, List.nil_append, List.append_assoc, List.cons.injEq, decide_eq_true_eq]
  constructor
  · congr 1
    omega
  · congr 2
    congr 1
    omega

theorem fragPdu_len {e : TxEnt} (h4 : 4 ≤ e.n201u) (h : e.n201u < 65536) (k : Nat)
    (rest : Octets) :
    (fragPdu e k rest).1 = min rest.length (e.n201u - 3 - (if k = 0 then 1 else 0)) := by
  simp only [fragPdu, maxPayload_eq h4 h, beq_iff_eq]
  split <;> split <;> omega

theorem fragRec_payload_len {e : TxEnt} (h4 : 4 ≤ e.n201u) (h : e.n201u < 65536) (k : Nat)
    (rest : Octets) : (fragRec e k rest).payload.length =
      min rest.length (e.n201u - 3 - (if k = 0 then 1 else 0)) := by
  simp only [fragRec, List.length_take, fragPdu_len h4 h]
  omega

theorem encode_length (p : SnPdu) :
    p.encode.length = 3 + (if p.first then 1 else 0) + p.payload.length := by
  simp only [SnPdu.encode]
  split <;> simp <;> omega

theorem fragRec_fits {e : TxEnt} (h4 : 4 ≤ e.n201u) (h : e.n201u < 65536) (k : Nat)
    (rest : Octets) : (fragRec e k rest).encode.length ≤ e.n201u := by
  rw [encode_length, fragRec_payload_len h4 h]
  simp only [fragRec, beq_iff_eq]
  split <;> omega

/-- The records of the fragments sent for `rest`, starting with fragment `i`: the loop without
message buffers and callbacks. -/
def fragRecs (e : TxEnt) : Nat → Nat → Octets → List SnPdu
  | 0, _, _ => []
  | fuel + 1, k, rest =>
    fragRec e k rest :: (if rest.length ≤ (fragPdu e k rest).1 then []
      else fragRecs e fuel ((k + 1) % 256) (rest.drop (fragPdu e k rest).1))

/-- Enough rounds for the loop. -/
def Enough (fuel k : Nat) (rest : Octets) : Prop :=
  2 * rest.length + (if k = 0 then 1 else 0) < fuel

theorem enough_next {e : TxEnt} (h4 : 4 ≤ e.n201u) (h : e.n201u < 65536) {fuel k : Nat}
    {rest : Octets} (hk : k < 256) (he : Enough (fuel + 1) k rest)
    (hm : ¬ rest.length ≤ (fragPdu e k rest).1) :
    Enough fuel ((k + 1) % 256) (rest.drop (fragPdu e k rest).1) := by
  simp only [Enough, List.length_drop, fragPdu_len h4 h] at *
  by_cases h0 : k = 0
  · subst h0
    simp at *
    omega
  · simp only [h0, if_false] at *
    split <;> omega

theorem sendFrags_all {e : TxEnt} (h4 : 4 ≤ e.n201u) (h : e.n201u ≤ 65279)
    (hn : e.nsapi < 16) (ht : e.txNpdu < 4096) :
    ∀ (fuel i k : Nat) (rest : Octets), k < 256 → Enough fuel k rest →
      sendFrags (fun _ => true) e fuel i k rest =
        .ok ⟨(fragRecs e fuel k rest).map SnPdu.encode, .done,
          { e with txNpdu := (e.txNpdu + 1) % 4095 }⟩
  | 0, i, k, rest, hk, he => by simp [Enough] at he
  | fuel + 1, i, k, rest, hk, he => by
    have hl : e.n201u < 65536 := by omega
    have hf := fragRec_fits h4 hl k rest
    rw [← fragPdu_encode hn ht] at hf
    have hfit : msgbFits (e.n201u + 256) 128 (fragPdu e k rest).2.length = true := by
      simp only [msgbFits, decide_eq_true_eq]
      omega
    rw [sendFrags, fragRecs]
    simp only [hfit, Bool.not_true, Bool.false_eq_true, if_false]
    by_cases hm : rest.length ≤ (fragPdu e k rest).1
    · simp only [hm, if_true, List.map_cons, List.map_nil, fragPdu_encode hn ht]
    · simp only [hm, if_false]
      rw [sendFrags_all h4 h hn ht fuel (i + 1) ((k + 1) % 256) _ (by omega)
        (enough_next h4 hl hk he hm)]
      simp only [List.map_cons, fragPdu_encode hn ht]

/-- When LLC refuses a PDU, what was sent is the beginning of what would have been sent, and the
N-PDU number is kept. -/
theorem sendFrags_acc {e : TxEnt} (h4 : 4 ≤ e.n201u) (h : e.n201u ≤ 65279)
    (hn : e.nsapi < 16) (ht : e.txNpdu < 4096) (acc : Nat → Bool) :
    ∀ (fuel i k : Nat) (rest : Octets), k < 256 → Enough fuel k rest →
      ∃ o, sendFrags acc e fuel i k rest = .ok o ∧
        o.sent <+: (fragRecs e fuel k rest).map SnPdu.encode ∧
        ((o.how = .done ∧ o.sent = (fragRecs e fuel k rest).map SnPdu.encode ∧
            (∀ j, j < o.sent.length → acc (i + j) = true) ∧
            o.ent = { e with txNpdu := (e.txNpdu + 1) % 4095 }) ∨
          (o.how = .refused ∧ o.ent = e ∧ 0 < o.sent.length ∧
            acc (i + o.sent.length - 1) = false))
  | 0, i, k, rest, hk, he => by simp [Enough] at he
  | fuel + 1, i, k, rest, hk, he => by
    have hl : e.n201u < 65536 := by omega
    have hf := fragRec_fits h4 hl k rest
    rw [← fragPdu_encode hn ht] at hf
    have hfit : msgbFits (e.n201u + 256) 128 (fragPdu e k rest).2.length = true := by
      simp only [msgbFits, decide_eq_true_eq]
      omega
    rw [sendFrags, fragRecs]
    simp only [hfit, Bool.not_true, Bool.false_eq_true, if_false]
    cases ha : acc i with
    | false =>
      refine ⟨_, rfl, ?_, Or.inr ⟨rfl, rfl, by simp, by simpa using ha⟩⟩
      simp [fragPdu_encode hn ht]
    | true =>
      simp only [Bool.not_true, Bool.false_eq_true, if_false]
      by_cases hm : rest.length ≤ (fragPdu e k rest).1
      · simp only [hm, if_true]
        refine ⟨_, rfl, ?_, Or.inl ⟨rfl, ?_, ?_, rfl⟩⟩
        · simp [fragPdu_encode hn ht]
        · simp [fragPdu_encode hn ht]
        · intro j hj
          simp at hj
          subst hj
          exact ha
      · simp only [hm, if_false]
        obtain ⟨o, ho, hp, hc⟩ := sendFrags_acc h4 h hn ht acc fuel (i + 1) ((k + 1) % 256)
          (rest.drop (fragPdu e k rest).1) (by omega) (enough_next h4 hl hk he hm)
        rw [ho]
        refine ⟨_, rfl, ?_, ?_⟩
        · simp only [List.map_cons, fragPdu_encode hn ht]
          exact List.cons_prefix_cons.mpr ⟨rfl, hp⟩
        · rcases hc with ⟨a, b, c, d⟩ | ⟨a, b, c, d⟩
          · refine Or.inl ⟨a, ?_, ?_, d⟩
            · simp only [List.map_cons, fragPdu_encode hn ht, b]
            · intro j hj
              cases j with
              | zero => exact ha
              | succ j =>
                have := c j (by simpa using hj)
                rwa [show i + 1 + j = i + (j + 1) by omega] at this
          · refine Or.inr ⟨a, b, by simp, ?_⟩
            simp only [List.length_cons]
            rwa [show i + 1 + o.sent.length - 1 = i + (o.sent.length + 1) - 1 by omega] at d

theorem fragRecs_ne {e : TxEnt} {fuel k : Nat} {rest : Octets} (he : Enough fuel k rest) :
    fragRecs e fuel k rest ≠ [] := by
  cases fuel with
  | zero => simp [Enough] at he
  | succ f => simp [fragRecs]

theorem fragRecs_mem {e : TxEnt} (h4 : 4 ≤ e.n201u) (h : e.n201u < 65536)
    (hn : e.nsapi < 16) (ht : e.txNpdu < 4096) : ∀ (fuel k : Nat) (rest : Octets),
      ∀ p ∈ fragRecs e fuel k rest, p.WellFormed ∧ p.encode.length ≤ e.n201u ∧
        p.nsapi = e.nsapi ∧ p.npdu = e.txNpdu
  | 0, _, _, p, hp => by simp [fragRecs] at hp
  | fuel + 1, k, rest, p, hp => by
    rw [fragRecs] at hp
    rcases List.mem_cons.mp hp with rfl | hp
    · refine ⟨⟨hn, ht, ?_⟩, fragRec_fits h4 h k rest, rfl, rfl⟩
      simp only [fragRec]
      omega
    · split at hp
      · simp at hp
      · exact fragRecs_mem h4 h hn ht fuel _ _ p hp

theorem fragRecs_payload {e : TxEnt} (h4 : 4 ≤ e.n201u) (h : e.n201u < 65536) :
    ∀ (fuel k : Nat) (rest : Octets), k < 256 → Enough fuel k rest →
      ((fragRecs e fuel k rest).map SnPdu.payload).flatten = rest
  | 0, k, rest, hk, he => by simp [Enough] at he
  | fuel + 1, k, rest, hk, he => by
    rw [fragRecs]
    by_cases hm : rest.length ≤ (fragPdu e k rest).1
    · simp only [hm, if_true, List.map_cons, List.map_nil, List.flatten_cons, List.flatten_nil,
        List.append_nil, fragRec, List.take_of_length_le]
    · simp only [hm, if_false, List.map_cons, List.flatten_cons]
      rw [fragRecs_payload h4 h fuel _ _ (by omega) (enough_next h4 h hk he hm)]
      simp [fragRec]

theorem fragRecs_get {e : TxEnt} (h4 : 4 ≤ e.n201u) (h : e.n201u < 65536) :
    ∀ (fuel k : Nat) (rest : Octets) (i : Nat) (p : SnPdu), k < 256 → Enough fuel k rest →
      (fragRecs e fuel k rest)[i]? = some p →
      (p.first = true ↔ (k + i) % 256 = 0) ∧
      (p.more = true ↔ i + 1 < (fragRecs e fuel k rest).length) ∧
      p.seg = (k + i) % 256 % 15
  | 0, k, rest, i, p, hk, he, hp => by simp [fragRecs] at hp
  | fuel + 1, k, rest, i, p, hk, he, hp => by
    rw [fragRecs] at hp ⊢
    by_cases hm : rest.length ≤ (fragPdu e k rest).1
    · simp only [hm, if_true] at hp ⊢
      cases i with
      | zero =>
        simp at hp
        subst hp
        simp only [fragRec, beq_iff_eq, decide_eq_true_eq, List.length_singleton]
        omega
      | succ i => simp at hp
    · simp only [hm, if_false] at hp ⊢
      have hen := enough_next h4 h hk he hm
      cases i with
      | zero =>
        simp at hp
        subst hp
        have hne := fragRecs_ne (e := e) hen
        have := List.length_pos_iff.mpr hne
        simp only [fragRec, beq_iff_eq, decide_eq_true_eq, List.length_cons]
        omega
      | succ i =>
        have := fragRecs_get h4 h fuel ((k + 1) % 256) (rest.drop (fragPdu e k rest).1) i p
          (by omega) hen (by simpa using hp)
        simp only [List.length_cons]
        have h1 : ((k + 1) % 256 + i) % 256 = (k + (i + 1)) % 256 := by omega
        rw [h1] at this
        refine ⟨this.1, ?_, this.2.2⟩
        rw [this.2.1]
        omega

/-- The number of fragments, as long as the fragment counter does not wrap. -/
theorem fragRecs_length {e : TxEnt} (h4 : 4 ≤ e.n201u) (h : e.n201u < 65536) :
    ∀ (K fuel k : Nat) (rest : Octets), k < 256 → 0 < k → k + K ≤ 256 → 0 < K →
      Enough fuel k rest → rest.length ≤ K * (e.n201u - 3) →
      (fragRecs e fuel k rest).length ≤ K := by
  intro K
  induction K with
  | zero => intro fuel k rest _ _ _ h0; omega
  | succ K ih =>
    intro fuel k rest hk hk0 hK _ he hr
    cases fuel with
    | zero => simp [Enough] at he
    | succ fuel =>
      rw [fragRecs]
      by_cases hm : rest.length ≤ (fragPdu e k rest).1
      · simp [hm]
      · simp only [hm, if_false, List.length_cons]
        have hen := enough_next h4 h hk he hm
        rw [fragPdu_len h4 h] at hm
        have hk0' : ¬ k = 0 := by omega
        simp only [hk0', if_false] at hm
        have hlen : (rest.drop (fragPdu e k rest).1).length ≤ K * (e.n201u - 3) := by
          rw [List.length_drop, fragPdu_len h4 h]
          simp only [hk0', if_false]
          rw [Nat.succ_mul] at hr
          omega
        have hKpos : 0 < K := by
          rcases Nat.eq_zero_or_pos K with rfl | h
          · simp at hr
            omega
          · exact h
        have hmod : (k + 1) % 256 = k + 1 := Nat.mod_eq_of_lt (by omega)
        have := ih fuel ((k + 1) % 256) _ (by omega) (by omega) (by omega) hKpos hen hlen
        omega

theorem fragRecs_length0 {e : TxEnt} (h4 : 4 ≤ e.n201u) (h : e.n201u < 65536) (K fuel : Nat)
    (rest : Octets) (hK : K ≤ 255) (he : Enough fuel 0 rest)
    (hr : rest.length ≤ (e.n201u - 4) + K * (e.n201u - 3)) :
    (fragRecs e fuel 0 rest).length ≤ K + 1 := by
  cases fuel with
  | zero => simp [Enough] at he
  | succ fuel =>
    rw [fragRecs]
    by_cases hm : rest.length ≤ (fragPdu e 0 rest).1
    · simp [hm]
    · simp only [hm, if_false, List.length_cons]
      have hen := enough_next h4 h (by omega) he hm
      rw [fragPdu_len h4 h] at hm
      simp only [if_true] at hm
      have hlen : (rest.drop (fragPdu e 0 rest).1).length ≤ K * (e.n201u - 3) := by
        rw [List.length_drop, fragPdu_len h4 h]
        simp only [if_true]
        omega
      have hKpos : 0 < K := by
        rcases Nat.eq_zero_or_pos K with rfl | h
        · simp at hr
          omega
        · exact h
      have := fragRecs_length h4 h K fuel ((0 + 1) % 256) _ (by omega) (by omega) (by omega) hKpos
        hen hlen
      omega

end Verif.Sndcp
