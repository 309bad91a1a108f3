import Verif.Sndcp.SlhcRing

/-!
# Header compression: the receiver follows the sender
-/
namespace Verif.Slhc

/-- The four numbers that identify a connection. -/
abbrev Conn := UInt32 × UInt32 × UInt16 × UInt16

/-- The connection of a segment. -/
def connOf (ip : Ip) (th : Tcp) : Conn := (ip.saddr, ip.daddr, th.source, th.dest)

/-- The bits that neither side compares or sends. -/
def marksOf (ip : Ip) (th : Tcp) : Nat × Nat × Nat := (ip.frag.toNat / 32768, th.off.toNat % 16, th.flags.toNat / 64)

/-! ## Bits -/

theorem u8_forall {P : UInt8 → Prop} [DecidablePred P] (h : ∀ n : Fin 256, P (UInt8.ofNat n.val)) (a : UInt8) : P a := by
  have := h ⟨a.toNat, a.toNat_lt⟩
  rwa [UInt8.ofNat_toNat] at this

theorem setFlag_clear : ∀ a : UInt8, flag a 32 = false → setFlag a 32 false = a :=
  u8_forall (by decide +kernel)

theorem flags_form : ∀ a : UInt8, flag a 2 = false → flag a 1 = false → flag a 4 = false → flag a 16 = true → flag a 32 = false →
    a = UInt8.ofNat (a.toNat / 64 * 64 + 16 + (if flag a 8 then 8 else 0)) :=
  u8_forall (by decide +kernel)

theorem psh_form : ∀ (h : Fin 4) (x y : Bool), setFlag (UInt8.ofNat (h.val * 64 + 16 + (if x then 8 else 0))) 8 y =
    UInt8.ofNat (h.val * 64 + 16 + (if y then 8 else 0)) := by decide +kernel

/-- Flags that differ at most in PSH. -/
theorem setFlag_psh {a b : UInt8} (h1 : flag a 2 = false) (h2 : flag a 1 = false) (h3 : flag a 4 = false) (h4 : flag a 16 = true)
    (h5 : flag a 32 = false) (k1 : flag b 2 = false) (k2 : flag b 1 = false) (k3 : flag b 4 = false) (k4 : flag b 16 = true)
    (k5 : flag b 32 = false) (e : a.toNat / 64 = b.toNat / 64) : setFlag a 8 (flag b 8) = b := by
  have ha := flags_form a h1 h2 h3 h4 h5
  have hb := flags_form b k1 k2 k3 k4 k5
  have hlt : a.toNat / 64 < 4 := by have := a.toNat_lt; omega
  have := psh_form ⟨a.toNat / 64, hlt⟩ (flag a 8) (flag b 8)
  dsimp only at this
  rw [← ha, e, ← hb] at this
  exact this

/-- The bits of the octet of changes. -/
theorem change_bits : ∀ (base : Fin 16) (i p : Bool),
    let x := UInt8.ofNat (base.val + (if i then 0x20 else 0) + (if p then 0x10 else 0) + 0x40 + 0x80)
    x &&& 0x80 ≠ 0 ∧ flag (x &&& 0x7f) 64 = true ∧ flag (x &&& 0x7f) 32 = i ∧ flag (x &&& 0x7f) 16 = p ∧
      (x &&& 0x7f) &&& 15 = UInt8.ofNat base.val ∧
      flag (x &&& 0x7f) 1 = decide (base.val % 2 = 1) ∧ flag (x &&& 0x7f) 2 = decide (base.val / 2 % 2 = 1) ∧
      flag (x &&& 0x7f) 4 = decide (base.val / 4 % 2 = 1) ∧ flag (x &&& 0x7f) 8 = decide (base.val / 8 % 2 = 1) := by
  decide +kernel

theorem ver4_bits : ∀ a : UInt8, a.toNat / 16 = 4 → a &&& 0x80 = 0 ∧ a &&& 0x70 ≠ 0x70 ∧ (a ||| 0x70) &&& 0x80 = 0 ∧
    (a ||| 0x70) &&& 0x70 = 0x70 ∧ (a ||| 0x70) &&& 0x4f = a ∧ a &&& 0x4f = a :=
  u8_forall (by decide +kernel)

theorem frag_low {x : UInt16} (h : x &&& 0x3fff = 0) : x.toNat % 16384 = 0 := by
  have := congrArg UInt16.toNat h
  rw [UInt16.toNat_and] at this
  have e : x.toNat &&& (2 ^ 14 - 1) = x.toNat % 2 ^ 14 := Nat.and_two_pow_sub_one_eq_mod _ _
  have e' : x.toNat &&& (2 ^ 14 - 1) = 0 := this
  omega

theorem frag_df {x y : UInt16} (h : x &&& 0x4000 = y &&& 0x4000) : x.toNat / 16384 % 2 = y.toNat / 16384 % 2 := by
  have := congrArg UInt16.toNat h
  rw [UInt16.toNat_and, UInt16.toNat_and] at this
  have t : x.toNat &&& 2 ^ 14 = y.toNat &&& 2 ^ 14 := this
  have hz : ∀ z : Nat, (z &&& 2 ^ 14).testBit 14 = decide (z / 2 ^ 14 % 2 = 1) := by
    intro z
    rw [Nat.testBit_and, Nat.testBit_two_pow_self, Bool.and_true, Nat.testBit_eq_decide_div_mod_eq]
  have h1 := hz x.toNat
  rw [t, hz, decide_eq_decide] at h1
  omega

/-! ## Slots -/

/-- A slot of the sender that holds a header. -/
structure Memo (f : Conn → Nat × Nat × Nat) (c : Cs) : Prop where
  ihl : 5 ≤ c.ip.ihl
  proto : c.ip.proto = 6
  frag : c.ip.frag &&& 0x3fff = 0
  doff : 5 ≤ c.tcp.doff
  syn : flag c.tcp.flags 2 = false
  fin : flag c.tcp.flags 1 = false
  rst : flag c.tcp.flags 4 = false
  ack : flag c.tcp.flags 16 = true
  urg : flag c.tcp.flags 32 = false
  marks : marksOf c.ip c.tcp = f (connOf c.ip c.tcp)
  len : c.ip.ihl * 4 + c.tcp.doff * 4 ≤ c.ip.len.toNat
  short : c.ip.len.toNat ≤ c.ip.ihl * 4 + c.tcp.doff * 4 + 32767

/-- A slot of the sender and the one of the receiver. -/
structure Same (c d : Cs) : Prop where
  ip : { d.ip with check := c.ip.check } = c.ip
  tcp : d.tcp = c.tcp
  ipopt : d.ipopt.take ((c.ip.ihl - 5) * 4) = c.ipopt.take ((c.ip.ihl - 5) * 4)
  tcpopt : d.tcpopt.take ((c.tcp.doff - 5) * 4) = c.tcpopt.take ((c.tcp.doff - 5) * 4)

/-- The options have their room. -/
def Room (c : Cs) : Prop := c.ipopt.length = 64 ∧ c.tcpopt.length = 64

/-- The sender's state. -/
structure TxInv (f : Conn → Nat × Nat × Nat) (t : Tx) : Prop where
  pos : 1 ≤ t.n
  top : t.n ≤ 255
  ring : ∃ l, RingOf t l
  slots : ∀ i, (t.cs i).ip.version = 4 → Memo f (t.cs i)
  room : ∀ i, Room (t.cs i)

/-- What a receiver has to be like, and what it is like after a packet of a slot arrived. -/
structure After (t : Tx) (r r' : Rx) (cs : Nat) : Prop where
  n : r'.n = r.n
  room : ∀ i, Room (r'.cs i)
  other : ∀ i, i ≠ cs → r'.cs i = r.cs i
  same : Same (t.cs cs) (r'.cs cs)

/-- A packet with a TCP segment. -/
structure Seg (f : Conn → Nat × Nat × Nat) (ip : Ip) (th : Tcp) (n : Nat) : Prop where
  room : ip.ihl * 4 + 20 ≤ n
  doff : 5 ≤ th.doff
  fits : ip.ihl * 4 + th.doff * 4 ≤ n
  short : n ≤ ip.ihl * 4 + th.doff * 4 + 32767
  urg : flag th.flags 32 = false
  marks : marksOf ip th = f (connOf ip th)

/-- A packet. -/
structure Good (f : Conn → Nat × Nat × Nat) (p : List UInt8) : Prop where
  version : (Ip.read p).version = 4
  ihl : 5 ≤ (Ip.read p).ihl
  hdr : (Ip.read p).ihl * 4 ≤ p.length
  len : (Ip.read p).len.toNat = p.length
  sum : wordSum (p.take ((Ip.read p).ihl * 4)) % 65535 = 0
  check : (Ip.read p).check.toNat ≠ 65535
  tcp : (Ip.read p).proto = 6 → (Ip.read p).frag &&& 0x3fff = 0 → Seg f (Ip.read p) (Tcp.read (p.drop ((Ip.read p).ihl * 4))) p.length

theorem ihl_le (h : Ip) : h.ihl ≤ 15 := by unfold Ip.ihl; omega
theorem doff_le (h : Tcp) : h.doff ≤ 15 := by
  have := h.off.toNat_lt
  unfold Tcp.doff
  omega

/-! ## The list of changes -/

theorem deltas_cases {ip : Ip} {th : Tcp} {c : Cs} {hlen base : Nat} {l : List UInt8} (hu : flag th.flags 32 = false)
    (h : deltas ip th c hlen = some (base, l)) :
    th.urp = c.tcp.urp ∧ (th.ack - c.tcp.ack).toNat ≤ 65535 ∧ (th.seq - c.tcp.seq).toNat ≤ 65535 ∧
    ((base = 11 ∧ l = [] ∧ th.window - c.tcp.window = 0 ∧ th.seq - c.tcp.seq = th.ack - c.tcp.ack ∧
        (th.seq - c.tcp.seq).toNat + hlen = c.ip.len.toNat) ∨
     (base = 15 ∧ l = [] ∧ th.window - c.tcp.window = 0 ∧ th.ack - c.tcp.ack = 0 ∧
        (th.seq - c.tcp.seq).toNat + hlen = c.ip.len.toNat) ∨
     (base = (if th.window - c.tcp.window ≠ 0 then 2 else 0) + (if th.ack - c.tcp.ack ≠ 0 then 4 else 0) +
        (if th.seq - c.tcp.seq ≠ 0 then 8 else 0) ∧
      l = (if th.window - c.tcp.window ≠ 0 then encode (th.window - c.tcp.window) else []) ++
        (if th.ack - c.tcp.ack ≠ 0 then encode (UInt16.ofNat (th.ack - c.tcp.ack).toNat) else []) ++
        (if th.seq - c.tcp.seq ≠ 0 then encode (UInt16.ofNat (th.seq - c.tcp.seq).toNat) else []))) := by
  unfold deltas at h
  dsimp only at h
  rw [hu] at h
  generalize th.window - c.tcp.window = w at *
  generalize th.ack - c.tcp.ack = a at *
  generalize th.seq - c.tcp.seq = s at *
  split at h
  · cases h
  · rename_i h1
    split at h
    · cases h
    · rename_i h2
      have hurp : th.urp = c.tcp.urp := by
        by_contra hne
        exact h1 ⟨rfl, hne⟩
      refine ⟨hurp, by omega, by omega, ?_⟩
      by_cases hw : w = 0 <;> by_cases ha : a = 0 <;> by_cases hs : s = 0 <;>
        simp only [hw, ha, hs, ne_eq, not_true_eq_false, not_false_eq_true, if_true, if_false, Bool.false_eq_true, List.nil_append,
          List.append_nil, Nat.zero_add, Nat.add_zero, Nat.reduceAdd, Nat.reduceEqDiff, false_or, or_false, false_and,
          reduceCtorEq, true_and] at h ⊢ <;>
        (repeat' split at h) <;> (try cases h) <;> (try rename_i hh; obtain ⟨h7, h8⟩ := hh) <;> (try subst h7) <;> simp_all

theorem deltas_length {ip : Ip} {th : Tcp} {c : Cs} {hlen base : Nat} {l : List UInt8} (hu : flag th.flags 32 = false)
    (h : deltas ip th c hlen = some (base, l)) : base < 16 ∧ l.length ≤ 9 := by
  obtain ⟨-, -, -, h⟩ := deltas_cases hu h
  rcases h with ⟨rfl, rfl, -⟩ | ⟨rfl, rfl, -⟩ | ⟨rfl, rfl⟩
  · exact ⟨by omega, by simp⟩
  · exact ⟨by omega, by simp⟩
  · have e1 := encode_length (th.window - c.tcp.window)
    have e2 := encode_length (UInt16.ofNat (th.ack - c.tcp.ack).toNat)
    have e3 := encode_length (UInt16.ofNat (th.seq - c.tcp.seq).toNat)
    refine ⟨?_, ?_⟩
    · split <;> split <;> split <;> omega
    · rw [List.length_append, List.length_append]
      split <;> split <;> split <;> (try simp only [List.length_nil]) <;> omega

theorem u16_back (x y : UInt16) : y + (x - y) = x := by rw [UInt16.add_comm, UInt16.sub_add_cancel]
theorem u32_back (x y : UInt32) : y + (x - y) = x := by rw [UInt32.add_comm, UInt32.sub_add_cancel]

theorem u16_zero {x y : UInt16} (h : x - y = 0) : x = y := by
  have := u16_back x y
  rw [h, UInt16.add_zero] at this
  exact this.symm
theorem u32_zero {x y : UInt32} (h : x - y = 0) : x = y := by
  have := u32_back x y
  rw [h, UInt32.add_zero] at this
  exact this.symm

theorem u32_narrow {x : UInt32} (h : x.toNat ≤ 65535) : UInt32.ofNat (UInt16.ofNat x.toNat).toNat = x := by
  apply u32_ext
  rw [UInt32.toNat_ofNat', UInt16.toNat_ofNat']
  omega

/-- The receiver finds the numbers of the TCP header. -/
theorem apply_ok {ip : Ip} {th : Tcp} {c d : Cs} {hlen base : Nat} {l b : List UInt8} {x : UInt8} {i : Nat}
    (hu : flag th.flags 32 = false) (h : deltas ip th c hlen = some (base, l))
    (hx : x &&& 15 = UInt8.ofNat base) (hx1 : flag x 1 = decide (base % 2 = 1)) (hx2 : flag x 2 = decide (base / 2 % 2 = 1))
    (hx4 : flag x 4 = decide (base / 4 % 2 = 1)) (hx8 : flag x 8 = decide (base / 8 % 2 = 1))
    (hw : d.tcp.window = c.tcp.window) (ha : d.tcp.ack = c.tcp.ack) (hs : d.tcp.seq = c.tcp.seq) (hl : d.ip.len = c.ip.len)
    (hd : d.ip.ihl * 4 + d.tcp.doff * 4 = hlen) (hshort : c.ip.len.toNat ≤ hlen + 32767) (hd0 : hlen ≤ 120)
    (hf : flag d.tcp.flags 32 = false) (hat : At b i l) :
    applyChanges x d b i = .ok ({ d.tcp with window := th.window, ack := th.ack, seq := th.seq }, i + l.length) := by
  obtain ⟨-, ha16, hs16, hc⟩ := deltas_cases hu h
  unfold applyChanges
  dsimp only
  rw [hx, hd, hl]
  rcases hc with ⟨rfl, rfl, hw0, hsa, hlen'⟩ | ⟨rfl, rfl, hw0, ha0, hlen'⟩ | ⟨hb, hll⟩
  · rw [if_pos (by decide)]
    have e : (c.ip.len.toNat + 65536 - hlen) % 65536 = (th.seq - c.tcp.seq).toNat := by omega
    rw [e, if_pos (by omega), UInt32.ofNat_toNat, ha, hs]
    have e1 : c.tcp.seq + (th.seq - c.tcp.seq) = th.seq := u32_back _ _
    have e2 : c.tcp.ack + (th.seq - c.tcp.seq) = th.ack := by rw [hsa]; exact u32_back _ _
    have e3 : d.tcp.window = th.window := by rw [hw]; exact (u16_zero hw0).symm
    rw [e1, e2, ← e3]
    rfl
  · rw [if_neg (by decide), if_pos (by decide)]
    have e1 : d.tcp.seq + UInt32.ofNat c.ip.len.toNat - UInt32.ofNat hlen = th.seq := by
      rw [hs]
      apply u32_ext
      have h1 := th.seq.toNat_lt
      have h2 := c.tcp.seq.toNat_lt
      have h3 := c.ip.len.toNat_lt
      rw [UInt32.toNat_sub] at hlen'
      rw [UInt32.toNat_sub, UInt32.toNat_add, UInt32.toNat_ofNat', UInt32.toNat_ofNat']
      omega
    have e2 : d.tcp.ack = th.ack := by rw [ha]; exact (u32_zero ha0).symm
    have e3 : d.tcp.window = th.window := by rw [hw]; exact (u16_zero hw0).symm
    rw [e1, ← e2, ← e3]
    rfl
  · have hw' : d.tcp.window + (if th.window - c.tcp.window ≠ 0 then th.window - c.tcp.window else 0) = th.window := by
      rw [hw]
      split
      · exact u16_back _ _
      · rename_i h0
        rw [UInt16.add_zero]
        exact (u16_zero (not_not.1 h0)).symm
    have ha' : d.tcp.ack + UInt32.ofNat (if th.ack - c.tcp.ack ≠ 0 then UInt16.ofNat (th.ack - c.tcp.ack).toNat else 0).toNat = th.ack := by
      rw [ha]
      split
      · rw [u32_narrow ha16]; exact u32_back _ _
      · rename_i h0
        show c.tcp.ack + 0 = _
        rw [UInt32.add_zero]
        exact (u32_zero (not_not.1 h0)).symm
    have hs' : d.tcp.seq + UInt32.ofNat (if th.seq - c.tcp.seq ≠ 0 then UInt16.ofNat (th.seq - c.tcp.seq).toNat else 0).toNat = th.seq := by
      rw [hs]
      split
      · rw [u32_narrow hs16]; exact u32_back _ _
      · rename_i h0
        show c.tcp.seq + 0 = _
        rw [UInt32.add_zero]
        exact (u32_zero (not_not.1 h0)).symm
    generalize th.window - c.tcp.window = w at *
    generalize UInt16.ofNat (th.ack - c.tcp.ack).toNat = a' at *
    generalize UInt16.ofNat (th.seq - c.tcp.seq).toNat = s' at *
    generalize th.ack - c.tcp.ack = a at *
    generalize th.seq - c.tcp.seq = s at *
    have hb16 : base < 16 := by rw [hb]; split <;> split <;> split <;> omega
    have n11 : UInt8.ofNat base ≠ 11 := by
      intro e
      have := congrArg UInt8.toNat e
      rw [UInt8.toNat_ofNat'] at this
      have : base % 256 = 11 := this
      rw [hb] at this
      revert this
      split <;> split <;> split <;> omega
    have n15 : UInt8.ofNat base ≠ 15 := by
      intro e
      have := congrArg UInt8.toNat e
      rw [UInt8.toNat_ofNat'] at this
      have : base % 256 = 15 := this
      rw [hb] at this
      revert this
      split <;> split <;> split <;> omega
    rw [if_neg n11, if_neg n15]
    have b1 : flag x 1 = false := by rw [hx1, hb, decide_eq_false_iff_not]; split <;> split <;> split <;> omega
    have b2 : flag x 2 = decide (w ≠ 0) := by
      rw [hx2, hb]; congr 1
      apply propext
      split <;> split <;> split <;> simp_all
    have b4 : flag x 4 = decide (a ≠ 0) := by
      rw [hx4, hb]; congr 1
      apply propext
      split <;> split <;> split <;> simp_all
    have b8 : flag x 8 = decide (s ≠ 0) := by
      rw [hx8, hb]; congr 1
      apply propext
      split <;> split <;> split <;> simp_all
    rw [b1, b2, b4, b8]
    have conv1 : ∀ (P : Prop) [Decidable P] (y : UInt16), (if P then encode y else []) = (if decide P then encode y else []) := by
      intro P _ y; by_cases hP : P <;> simp [hP]
    rw [conv1 (w ≠ 0), conv1 (a ≠ 0), conv1 (s ≠ 0)] at hll
    subst hll
    have d1 := decodeIf_ok _ w hat.left.left
    have d2 := decodeIf_ok _ a' hat.left.right
    have at3 := hat.right
    rw [List.length_append, ← Nat.add_assoc] at at3
    have d3 := decodeIf_ok _ s' at3
    have d0 : decodeIf false b i = .ok (0, i) := rfl
    rw [d0, sbind_ok]
    dsimp only
    rw [d1, sbind_ok]
    dsimp only
    rw [d2, sbind_ok]
    dsimp only
    rw [d3, sbind_ok]
    dsimp only
    rw [setFlag_clear _ hf, if_neg (by decide : ¬ false = true)]
    have q1 : (if decide (w ≠ 0) = true then w else 0) = if w ≠ 0 then w else 0 := by by_cases hP : w ≠ 0 <;> simp [hP]
    have q2 : (if decide (a ≠ 0) = true then a' else 0) = if a ≠ 0 then a' else 0 := by by_cases hP : a ≠ 0 <;> simp [hP]
    have q3 : (if decide (s ≠ 0) = true then s' else 0) = if s ≠ 0 then s' else 0 := by by_cases hP : s ≠ 0 <;> simp [hP]
    rw [q1, q2, q3, hw', ha', hs', List.length_append, List.length_append]
    congr 2
    omega

end Verif.Slhc
