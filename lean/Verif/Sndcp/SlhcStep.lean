import Verif.Sndcp.SlhcSim

/-!
# Header compression: one packet
-/
namespace Verif.Slhc

theorem ip_read_append {l : List UInt8} (h : 20 ≤ l.length) (r : List UInt8) : Ip.read (l ++ r) = Ip.read l := by
  obtain ⟨a0, a1, a2, a3, a4, a5, a6, a7, a8, a9, b0, b1, b2, b3, b4, b5, b6, b7, b8, b9, k, rfl⟩ := split20 h
  rfl

theorem tcp_read_append {l : List UInt8} (h : 20 ≤ l.length) (r : List UInt8) : Tcp.read (l ++ r) = Tcp.read l := by
  obtain ⟨a0, a1, a2, a3, a4, a5, a6, a7, a8, a9, b0, b1, b2, b3, b4, b5, b6, b7, b8, b9, k, rfl⟩ := split20 h
  rfl

theorem cut {b : List UInt8} (n : Nat) (h : n ≤ b.length) : ∃ x y, b = x ++ y ∧ x.length = n :=
  ⟨b.take n, b.drop n, (List.take_append_drop n b).symm, by rw [List.length_take]; omega⟩

/-- The octets before the checksum of a header. -/
def Ip.before (h : Ip) : List UInt8 := [h.vihl, h.tos] ++ put16 h.len ++ put16 h.ident ++ put16 h.frag ++ [h.ttl, h.proto]
/-- The octets after it. -/
def Ip.after (h : Ip) : List UInt8 := put32 h.saddr ++ put32 h.daddr

theorem ip_bytes_split (h : Ip) : h.bytes = h.before ++ put16 h.check ++ h.after := rfl

/-- The packet that is put together. -/
theorem rebuild_ok {c : Cs} {b pay : List UInt8} {i size : Nat} (hpay : (b.drop i).take size = pay) (hs : pay.length = size)
    (hi : 5 ≤ c.ip.ihl) (hd : 5 ≤ c.tcp.doff) (hr : Room c) (hb : c.ip.ihl * 4 + c.tcp.doff * 4 + size ≤ b.length) :
    rebuild c b i size = .ok (({ c.ip with check := csum (c.ip.bytes ++ c.ipopt.take ((c.ip.ihl - 5) * 4)) } : Ip).bytes ++
      c.ipopt.take ((c.ip.ihl - 5) * 4) ++ (c.tcp.bytes ++ c.tcpopt.take ((c.tcp.doff - 5) * 4)) ++ pay) := by
  have hi15 := ihl_le c.ip
  have hd15 := doff_le c.tcp
  obtain ⟨hr1, hr2⟩ := hr
  have lo1 : (c.ipopt.take ((c.ip.ihl - 5) * 4)).length = (c.ip.ihl - 5) * 4 := by rw [List.length_take]; omega
  have lo2 : (c.tcpopt.take ((c.tcp.doff - 5) * 4)).length = (c.tcp.doff - 5) * 4 := by rw [List.length_take]; omega
  obtain ⟨X1, b1, e1, l1⟩ := cut (b := b) (c.ip.ihl * 4) (by omega)
  have hb1 : c.tcp.doff * 4 + size ≤ b1.length := by rw [e1, List.length_append] at hb; omega
  obtain ⟨X2, b2, e2, l2⟩ := cut (b := b1) (c.tcp.doff * 4) (by omega)
  have hb2 : size ≤ b2.length := by rw [e2, List.length_append] at hb1; omega
  obtain ⟨Y, Z, e3, l3⟩ := cut (b := b2) size hb2
  have eb : b = (X1 ++ X2) ++ Y ++ Z := by rw [e1, e2, e3]; simp
  unfold rebuild
  dsimp only
  generalize c.ipopt.take ((c.ip.ihl - 5) * 4) = o1 at *
  generalize ho2 : c.tcpopt.take ((c.tcp.doff - 5) * 4) = o2 at *
  rw [hpay]
  have hw1 : write b (c.ip.ihl * 4 + c.tcp.doff * 4) pay = .ok ((X1 ++ X2) ++ pay ++ Z) := by
    have := write_mid (x := X1 ++ X2) (y := Y) (z := Z) (l := pay) (by omega)
    rw [List.length_append, l1, l2] at this
    rw [eb]
    exact this
  rw [hw1, sbind_ok]
  have hw2 : write ((X1 ++ X2) ++ pay ++ Z) 0 (c.ip.bytes ++ o1) = .ok ((c.ip.bytes ++ o1) ++ (X2 ++ pay ++ Z)) := by
    have := write_mid (x := []) (y := X1) (z := X2 ++ pay ++ Z) (l := c.ip.bytes ++ o1) (by
      rw [List.length_append, ip_bytes_length, lo1]; omega)
    simp only [List.nil_append, List.length_nil] at this
    rw [← this]
    simp
  rw [hw2, sbind_ok]
  have ht : ((c.ip.bytes ++ o1) ++ (X2 ++ pay ++ Z)).take (c.ip.ihl * 4) = c.ip.bytes ++ o1 := by
    have : (c.ip.bytes ++ o1).length = c.ip.ihl * 4 := by rw [List.length_append, ip_bytes_length, lo1]; omega
    rw [← this, List.take_left]
  rw [ht]
  generalize csum (c.ip.bytes ++ o1) = ck
  have hw3 : write ((c.ip.bytes ++ o1) ++ (X2 ++ pay ++ Z)) 10 (put16 ck) =
      .ok ((({ c.ip with check := ck } : Ip).bytes ++ o1) ++ (X2 ++ pay ++ Z)) := by
    have := write_mid (x := c.ip.before) (y := put16 c.ip.check) (z := c.ip.after ++ o1 ++ (X2 ++ pay ++ Z)) (l := put16 ck) rfl
    have e10 : c.ip.before.length = 10 := rfl
    rw [e10] at this
    rw [ip_bytes_split, ip_bytes_split]
    simp only [List.append_assoc] at this ⊢
    exact this
  rw [hw3, sbind_ok]
  have hl4 : (c.ip.bytes ++ o1).length = (({ c.ip with check := ck } : Ip).bytes ++ o1).length := rfl
  rw [hl4]
  have hw4 := write_mid (x := ({ c.ip with check := ck } : Ip).bytes ++ o1) (y := X2) (z := pay ++ Z) (l := c.tcp.bytes ++ o2) (by
    rw [List.length_append, tcp_bytes_length, lo2]; omega)
  have hw4' : ({ c.ip with check := ck } : Ip).bytes ++ o1 ++ (X2 ++ pay ++ Z) = ({ c.ip with check := ck } : Ip).bytes ++ o1 ++ X2 ++ (pay ++ Z) := by
    simp
  rw [hw4', hw4, sbind_ok]
  congr 1
  have hfin : (({ c.ip with check := ck } : Ip).bytes ++ o1 ++ (c.tcp.bytes ++ o2) ++ pay).length = size + (c.ip.ihl * 4 + c.tcp.doff * 4) := by
    rw [List.length_append, List.length_append, List.length_append, List.length_append, ip_bytes_length, tcp_bytes_length, lo1, lo2, hs]
    omega
  generalize ({ c.ip with check := ck } : Ip).bytes ++ o1 ++ (c.tcp.bytes ++ o2) = A at hfin ⊢
  rw [← hfin, ← List.append_assoc, List.take_left]

/-! ## Packets that are sent unchanged -/

theorem Good.ne {f : Conn → Nat × Nat × Nat} {p : List UInt8} (h : Good f p) : ∃ a l, p = a :: l ∧ a.toNat / 16 = 4 := by
  have h1 := h.hdr
  have h2 := h.ihl
  cases p with
  | nil => simp at h1; omega
  | cons a l => exact ⟨a, l, rfl, h.version⟩

theorem packet_plain {f : Conn → Nat × Nat × Nat} {t : Tx} {p : List UInt8} (h : Good f p) (hc : t.compress p = .ok (t, p)) :
    t.packet p = .ok (t, 0, p) := by
  obtain ⟨a, l, rfl, hv⟩ := h.ne
  obtain ⟨h1, h2, -⟩ := ver4_bits a hv
  unfold Tx.packet
  rw [hc, sbind_ok]
  dsimp only
  rw [if_neg (by simpa using h1), if_neg h2]

theorem plain_step (r : Rx) (p rest : List UInt8) : r.packet (p ++ rest) p.length 0 = .ok (r, p) := by
  unfold Rx.packet
  rw [if_neg (by decide), if_neg (by decide), List.take_left]

/-! ## Packets that are sent uncompressed -/

theorem set_room {c : Cs} (h : Room c) (ip : Ip) (th : Tcp) (o1 o2 : List UInt8) (h1 : o1.length ≤ 64) (h2 : o2.length ≤ 64) :
    Room (c.memorize ip th o1 o2) := by
  obtain ⟨a, b⟩ := h
  unfold Cs.memorize Room over
  refine ⟨?_, ?_⟩
  · dsimp only; split
    · rw [List.length_append, List.length_drop]; omega
    · exact a
  · dsimp only; split
    · rw [List.length_append, List.length_drop]; omega
    · exact b

theorem over_take {old new : List UInt8} {k : Nat} (h : new.length = k) : (over old new).take k = new := by
  subst h
  unfold over
  rw [List.take_left]

theorem memorize_ipopt (c : Cs) (ip : Ip) (th : Tcp) {o1 : List UInt8} (o2 : List UInt8) (h : o1.length = (ip.ihl - 5) * 4) :
    (c.memorize ip th o1 o2).ipopt.take ((ip.ihl - 5) * 4) = o1 := by
  unfold Cs.memorize
  dsimp only
  split
  · exact over_take h
  · rename_i hn
    have e : (ip.ihl - 5) * 4 = 0 := by omega
    rw [e] at h ⊢
    rw [List.take_zero, List.eq_nil_of_length_eq_zero h]

theorem memorize_tcpopt (c : Cs) (ip : Ip) (th : Tcp) (o1 : List UInt8) {o2 : List UInt8} (h : o2.length = (th.doff - 5) * 4) :
    (c.memorize ip th o1 o2).tcpopt.take ((th.doff - 5) * 4) = o2 := by
  unfold Cs.memorize
  dsimp only
  split
  · exact over_take h
  · rename_i hn
    have e : (th.doff - 5) * 4 = 0 := by omega
    rw [e] at h ⊢
    rw [List.take_zero, List.eq_nil_of_length_eq_zero h]

theorem packet_unc {f : Conn → Nat × Nat × Nat} {t t' : Tx} {p : List UInt8} {cs : Nat} (h : Good f p)
    (hc : t.compress p = .ok (t', orHead (p.set 9 (UInt8.ofNat cs)) 0x70)) : t.packet p = .ok (t', 1, p.set 9 (UInt8.ofNat cs)) := by
  obtain ⟨a, l, rfl, hv⟩ := h.ne
  obtain ⟨-, -, h3, h4, h5, -⟩ := ver4_bits a hv
  unfold Tx.packet
  rw [hc, sbind_ok]
  show (if (a ||| 0x70) &&& 0x80 ≠ 0 then _ else _) = _
  rw [if_neg (by simpa using h3), if_pos h4, h5]
  rfl

/-- The flags of a segment that can be compressed. -/
structure Flow (th : Tcp) : Prop where
  syn : flag th.flags 2 = false
  fin : flag th.flags 1 = false
  rst : flag th.flags 4 = false
  ack : flag th.flags 16 = true

theorem memo_of {f : Conn → Nat × Nat × Nat} {p : List UInt8} (h : Good f p) (hp : (Ip.read p).proto = 6)
    (hf : (Ip.read p).frag &&& 0x3fff = 0) (fl : Flow (Tcp.read (p.drop ((Ip.read p).ihl * 4)))) {c : Cs} (e1 : c.ip = Ip.read p)
    (e2 : c.tcp = Tcp.read (p.drop ((Ip.read p).ihl * 4))) : Memo f c := by
  have s := h.tcp hp hf
  have hl := h.len
  constructor
  · rw [e1]; exact h.ihl
  · rw [e1]; exact hp
  · rw [e1]; exact hf
  · rw [e2]; exact s.doff
  · rw [e2]; exact fl.syn
  · rw [e2]; exact fl.fin
  · rw [e2]; exact fl.rst
  · rw [e2]; exact fl.ack
  · rw [e2]; exact s.urg
  · rw [e1, e2]; exact s.marks
  · rw [e1, e2, hl]; exact s.fits
  · rw [e1, e2, hl]; exact s.short

theorem unc_step {f : Conn → Nat × Nat × Nat} {t : Tx} {r : Rx} {p : List UInt8} {cs : Nat} (R : TxInv f t) (hrn : r.n = t.n)
    (hroom : ∀ i, Room (r.cs i)) (h : Good f p)
    (hp : (Ip.read p).proto = 6) (hf : (Ip.read p).frag &&& 0x3fff = 0) (fl : Flow (Tcp.read (p.drop ((Ip.read p).ihl * 4))))
    (hcs : cs < t.n) (rest : List UInt8) :
    ∃ r', r.packet (p.set 9 (UInt8.ofNat cs) ++ rest) (p.set 9 (UInt8.ofNat cs)).length 1 = .ok (r', p) ∧
      After (t.uncompressed cs (Ip.read p) (Tcp.read (p.drop ((Ip.read p).ihl * 4)))
        ((p.drop 20).take (((Ip.read p).ihl - 5) * 4))
        (((p.drop ((Ip.read p).ihl * 4)).drop 20).take (((Tcp.read (p.drop ((Ip.read p).ihl * 4))).doff - 5) * 4)) p).1 r r' cs := by
  have htop := R.top
  have hpos := R.pos
  have hi := h.ihl
  have hi15 := ihl_le (Ip.read p)
  have s := h.tcp hp hf
  have hs1 := s.room
  have hs2 := s.fits
  have hs3 := s.doff
  have hd15 := doff_le (Tcp.read (p.drop ((Ip.read p).ihl * 4)))
  have h20 : 20 ≤ p.length := by omega
  have hv4 := h.version
  have hihl : (Ip.read p).ihl = (p.getD 0 0).toNat % 16 := rfl
  -- the receiver
  have key : ∃ r', r.packet (p.set 9 (UInt8.ofNat cs) ++ rest) (p.set 9 (UInt8.ofNat cs)).length 1 = .ok (r', p) ∧
      r' = { r with recv := cs, toss := false,
                    cs := setSlot r.cs cs ((r.cs cs).memorize (Ip.read p) (Tcp.read (p.drop ((Ip.read p).ihl * 4)))
                      ((p.drop 20).take (((Ip.read p).ihl - 5) * 4))
                      (((p.drop ((Ip.read p).ihl * 4)).drop 20).take (((Tcp.read (p.drop ((Ip.read p).ihl * 4))).doff - 5) * 4))) } := by
    refine ⟨_, ?_, rfl⟩
    obtain ⟨a0, a1, a2, a3, a4, a5, a6, a7, a8, a9, b0, b1, b2, b3, b4, b5, b6, b7, b8, b9, k, e⟩ := split20 h20
    have hp9 : a9 = 6 := by rw [e] at hp; exact hp
    have hva : a0.toNat / 16 = 4 := by rw [e] at hv4; exact hv4
    have hia : a0.toNat % 16 = (Ip.read p).ihl := by rw [e]; rfl
    subst hp9
    have hset : p.set 9 (UInt8.ofNat cs) ++ rest = a0 :: ([a1, a2, a3, a4, a5, a6, a7, a8, UInt8.ofNat cs, b0, b1, b2, b3, b4, b5, b6, b7, b8, b9] ++ k ++ rest) := by
      rw [e]; rfl
    have hback : (a0 :: ([a1, a2, a3, a4, a5, a6, a7, a8, UInt8.ofNat cs, b0, b1, b2, b3, b4, b5, b6, b7, b8, b9] ++ k ++ rest)).set 9 6 = p ++ rest := by
      rw [e]; rfl
    rw [List.length_set]
    unfold Rx.packet
    rw [if_pos rfl, hset]
    dsimp only
    rw [(ver4_bits a0 hva).2.2.2.2.2]
    unfold Rx.remember
    dsimp only
    rw [if_neg (by omega), hback]
    have g0 : ((a0 :: ([a1, a2, a3, a4, a5, a6, a7, a8, UInt8.ofNat cs, b0, b1, b2, b3, b4, b5, b6, b7, b8, b9] ++ k ++ rest)).getD 0 0).toNat % 16 = (Ip.read p).ihl := hia
    have g9 : ((a0 :: ([a1, a2, a3, a4, a5, a6, a7, a8, UInt8.ofNat cs, b0, b1, b2, b3, b4, b5, b6, b7, b8, b9] ++ k ++ rest)).getD 9 0).toNat = cs := by
      show (UInt8.ofNat cs).toNat = cs
      rw [UInt8.toNat_ofNat']
      omega
    rw [g0, g9, if_neg (by omega), if_neg (by rw [List.length_append]; omega)]
    have htk : (p ++ rest).take ((Ip.read p).ihl * 4) = p.take ((Ip.read p).ihl * 4) := List.take_append_of_le_length (by omega)
    rw [htk, if_neg (by rw [csum_zero h.sum]; decide), hrn, if_neg (by omega), if_neg (by omega)]
    have hdr : (p ++ rest).drop ((Ip.read p).ihl * 4) = p.drop ((Ip.read p).ihl * 4) ++ rest := List.drop_append_of_le_length (by omega)
    have hdl : 20 ≤ (p.drop ((Ip.read p).ihl * 4)).length := by rw [List.length_drop]; omega
    rw [hdr, tcp_read_append hdl, ip_read_append h20]
    rw [if_neg (by rw [List.length_append, List.length_drop]; omega)]
    have o1 : ((p ++ rest).drop 20).take (((Ip.read p).ihl - 5) * 4) = (p.drop 20).take (((Ip.read p).ihl - 5) * 4) := by
      rw [List.drop_append_of_le_length h20, List.take_append_of_le_length (by rw [List.length_drop]; omega)]
    have o2 : ((p.drop ((Ip.read p).ihl * 4) ++ rest).drop 20).take (((Tcp.read (p.drop ((Ip.read p).ihl * 4))).doff - 5) * 4) =
        ((p.drop ((Ip.read p).ihl * 4)).drop 20).take (((Tcp.read (p.drop ((Ip.read p).ihl * 4))).doff - 5) * 4) := by
      rw [List.drop_append_of_le_length hdl, List.take_append_of_le_length (by rw [List.length_drop, List.length_drop]; omega)]
    rw [o1, o2, List.take_left]
  obtain ⟨r', hr', e'⟩ := key
  refine ⟨r', hr', ?_⟩
  subst e'
  have lo1 : ((p.drop 20).take (((Ip.read p).ihl - 5) * 4)).length = ((Ip.read p).ihl - 5) * 4 := by
    rw [List.length_take, List.length_drop]; omega
  have lo2 : (((p.drop ((Ip.read p).ihl * 4)).drop 20).take (((Tcp.read (p.drop ((Ip.read p).ihl * 4))).doff - 5) * 4)).length =
      ((Tcp.read (p.drop ((Ip.read p).ihl * 4))).doff - 5) * 4 := by
    rw [List.length_take, List.length_drop, List.length_drop]; omega
  refine ⟨rfl, ?_, ?_, ?_⟩
  · intro i
    show Room (setSlot r.cs cs _ i)
    unfold setSlot
    split
    · exact set_room (hroom cs) _ _ _ _ (by omega) (by omega)
    · exact hroom i
  · intro i hi'
    exact if_neg hi'
  · show Same (setSlot t.cs cs _ cs) (setSlot r.cs cs _ cs)
    unfold setSlot
    rw [if_pos rfl, if_pos rfl]
    refine ⟨rfl, rfl, ?_, ?_⟩
    · show ((r.cs cs).memorize _ _ _ _).ipopt.take (((Ip.read p).ihl - 5) * 4) = ((t.cs cs).memorize _ _ _ _).ipopt.take (((Ip.read p).ihl - 5) * 4)
      rw [memorize_ipopt _ _ _ _ lo1, memorize_ipopt _ _ _ _ lo1]
    · show ((r.cs cs).memorize _ _ _ _).tcpopt.take (((Tcp.read (p.drop ((Ip.read p).ihl * 4))).doff - 5) * 4) =
        ((t.cs cs).memorize _ _ _ _).tcpopt.take (((Tcp.read (p.drop ((Ip.read p).ihl * 4))).doff - 5) * 4)
      rw [memorize_tcpopt _ _ _ _ lo2, memorize_tcpopt _ _ _ _ lo2]

/-- The sender when it has sent an uncompressed packet. -/
theorem unc_inv {f : Conn → Nat × Nat × Nat} {t : Tx} {p : List UInt8} {cs : Nat} (R : TxInv f t) (h : Good f p)
    (hp : (Ip.read p).proto = 6) (hf : (Ip.read p).frag &&& 0x3fff = 0) (fl : Flow (Tcp.read (p.drop ((Ip.read p).ihl * 4)))) :
    TxInv f (t.uncompressed cs (Ip.read p) (Tcp.read (p.drop ((Ip.read p).ihl * 4)))
        ((p.drop 20).take (((Ip.read p).ihl - 5) * 4))
        (((p.drop ((Ip.read p).ihl * 4)).drop 20).take (((Tcp.read (p.drop ((Ip.read p).ihl * 4))).doff - 5) * 4)) p).1 := by
  obtain ⟨l, hring⟩ := R.ring
  have hi15 := ihl_le (Ip.read p)
  have hd15 := doff_le (Tcp.read (p.drop ((Ip.read p).ihl * 4)))
  refine ⟨R.pos, R.top, ⟨l, ⟨hring.path, hring.last, hring.nodup, hring.lt⟩⟩, ?_, ?_⟩
  · intro i hver
    show Memo f (setSlot t.cs cs _ i)
    have hver' : (setSlot t.cs cs ((t.cs cs).memorize (Ip.read p) (Tcp.read (p.drop ((Ip.read p).ihl * 4)))
        ((p.drop 20).take (((Ip.read p).ihl - 5) * 4))
        (((p.drop ((Ip.read p).ihl * 4)).drop 20).take (((Tcp.read (p.drop ((Ip.read p).ihl * 4))).doff - 5) * 4))) i).ip.version = 4 := hver
    unfold setSlot at hver' ⊢
    by_cases hi' : i = cs
    · rw [if_pos hi']
      exact memo_of h hp hf fl rfl rfl
    · rw [if_neg hi'] at hver' ⊢
      exact R.slots i hver'
  · intro i
    show Room (setSlot t.cs cs _ i)
    unfold setSlot
    split
    · exact set_room (R.room cs) _ _ _ _ (by rw [List.length_take]; omega) (by rw [List.length_take]; omega)
    · exact R.room i

/-! ## Packets that are sent compressed -/

theorem ip_eq {a b : Ip} (h0 : a.vihl = b.vihl) (h1 : a.tos = b.tos) (h2 : a.len = b.len) (h3 : a.ident = b.ident) (h4 : a.frag = b.frag)
    (h5 : a.ttl = b.ttl) (h6 : a.proto = b.proto) (h7 : a.check = b.check) (h8 : a.saddr = b.saddr) (h9 : a.daddr = b.daddr) : a = b := by
  cases a; cases b; simp_all

theorem tcp_eq {a b : Tcp} (h0 : a.source = b.source) (h1 : a.dest = b.dest) (h2 : a.seq = b.seq) (h3 : a.ack = b.ack) (h4 : a.off = b.off)
    (h5 : a.flags = b.flags) (h6 : a.window = b.window) (h7 : a.check = b.check) (h8 : a.urp = b.urp) : a = b := by
  cases a; cases b; simp_all

theorem addIdent_eq (ip : Ip) (th : Tcp) (c : Cs) (base : Nat) (l : List UInt8) : addIdent ip th c (base, l) =
    (base + (if decide (ip.ident.toNat ≠ c.ip.ident.toNat + 1) then 0x20 else 0) + (if flag th.flags 8 then 0x10 else 0),
      l ++ (if decide (ip.ident.toNat ≠ c.ip.ident.toNat + 1) then encode (ip.ident - c.ip.ident) else [])) := by
  unfold addIdent
  dsimp only
  by_cases h : ip.ident.toNat ≠ c.ip.ident.toNat + 1
  · rw [decide_eq_true h, if_pos h, if_pos rfl, if_pos rfl]
  · rw [decide_eq_false h, if_neg h, if_neg Bool.false_ne_true, if_neg Bool.false_ne_true, List.append_nil, Nat.add_zero]

/-- The packet as the sender made it from the list of changes, with the bit that tells it from others removed. -/
def wire (x : UInt8) (cs : Nat) (check : UInt16) (l pay : List UInt8) : List UInt8 := [x, UInt8.ofNat cs] ++ put16 check ++ l ++ pay

/-- A packet is its parts. -/
theorem parts {p : List UInt8} (h20 : 20 ≤ p.length) (hi : 5 ≤ (Ip.read p).ihl) (hr : (Ip.read p).ihl * 4 + 20 ≤ p.length)
    (hd : 5 ≤ (Tcp.read (p.drop ((Ip.read p).ihl * 4))).doff) :
    (Ip.read p).bytes ++ (p.drop 20).take (((Ip.read p).ihl - 5) * 4) = p.take ((Ip.read p).ihl * 4) ∧
    (Ip.read p).bytes ++ (p.drop 20).take (((Ip.read p).ihl - 5) * 4) ++
      ((Tcp.read (p.drop ((Ip.read p).ihl * 4))).bytes ++
        ((p.drop ((Ip.read p).ihl * 4)).drop 20).take (((Tcp.read (p.drop ((Ip.read p).ihl * 4))).doff - 5) * 4)) ++
      p.drop ((Ip.read p).ihl * 4 + (Tcp.read (p.drop ((Ip.read p).ihl * 4))).doff * 4) = p := by
  have e1 := ip_bytes_read h20
  have hq : 20 ≤ (p.drop ((Ip.read p).ihl * 4)).length := by rw [List.length_drop]; omega
  have e2 := tcp_bytes_read hq
  rw [e1, e2]
  have join : ∀ (l : List UInt8) (k : Nat), 5 ≤ k → l.take 20 ++ (l.drop 20).take ((k - 5) * 4) = l.take (k * 4) := by
    intro l k hk
    have : k * 4 = 20 + (k - 5) * 4 := by omega
    rw [this, List.take_add]
  rw [join _ _ hi, join _ _ hd]
  refine ⟨rfl, ?_⟩
  rw [List.append_assoc, ← List.drop_drop, List.take_append_drop, List.take_append_drop]

theorem com_step {f : Conn → Nat × Nat × Nat} {t : Tx} {r : Rx} {p : List UInt8} {cs base : Nat} {l : List UInt8} (R : TxInv f t) (hrn : r.n = t.n)
    (hroom : ∀ i, Room (r.cs i)) (S : Same (t.cs cs) (r.cs cs)) (h : Good f p)
    (hp : (Ip.read p).proto = 6) (hf : (Ip.read p).frag &&& 0x3fff = 0) (fl : Flow (Tcp.read (p.drop ((Ip.read p).ihl * 4))))
    (hcs : cs < t.n)
    (hm : (Ip.read p).saddr = (t.cs cs).ip.saddr ∧ (Ip.read p).daddr = (t.cs cs).ip.daddr ∧
      (Tcp.read (p.drop ((Ip.read p).ihl * 4))).source = (t.cs cs).tcp.source ∧
      (Tcp.read (p.drop ((Ip.read p).ihl * 4))).dest = (t.cs cs).tcp.dest)
    (hsh : sameShape (Ip.read p) (Tcp.read (p.drop ((Ip.read p).ihl * 4))) ((p.drop 20).take (((Ip.read p).ihl - 5) * 4))
        (((p.drop ((Ip.read p).ihl * 4)).drop 20).take (((Tcp.read (p.drop ((Ip.read p).ihl * 4))).doff - 5) * 4)) (t.cs cs) = true)
    (hd : deltas (Ip.read p) (Tcp.read (p.drop ((Ip.read p).ihl * 4))) (t.cs cs)
      ((Ip.read p).ihl * 4 + (Tcp.read (p.drop ((Ip.read p).ihl * 4))).doff * 4) = some (base, l)) (x : UInt8)
    (hx : x = UInt8.ofNat ((addIdent (Ip.read p) (Tcp.read (p.drop ((Ip.read p).ihl * 4))) (t.cs cs) (base, l)).1 + 0x40 + 0x80) &&& 0x7f)
    (rest : List UInt8) (o : List UInt8)
    (ho : o = wire x cs (Tcp.read (p.drop ((Ip.read p).ihl * 4))).check
        (addIdent (Ip.read p) (Tcp.read (p.drop ((Ip.read p).ihl * 4))) (t.cs cs) (base, l)).2
        (p.drop ((Ip.read p).ihl * 4 + (Tcp.read (p.drop ((Ip.read p).ihl * 4))).doff * 4)))
    (hb : p.length ≤ (o ++ rest).length) :
    ∃ r', r.packet (o ++ rest) o.length 2 = .ok (r', p) ∧
      After { t with cs := setSlot t.cs cs { (t.cs cs) with ip := Ip.read p, tcp := Tcp.read (p.drop ((Ip.read p).ihl * 4)) } } r r' cs := by
  have htop := R.top
  have hpos := R.pos
  have hi := h.ihl
  have hi15 := ihl_le (Ip.read p)
  have s := h.tcp hp hf
  have hs1 := s.room
  have hs2 := s.fits
  have hs3 := s.doff
  have hd15 := doff_le (Tcp.read (p.drop ((Ip.read p).ihl * 4)))
  have h20 : 20 ≤ p.length := by omega
  obtain ⟨hcat1, hcat2⟩ := parts h20 hi hs1 hs3
  have hv4 := h.version
  have hlen := h.len
  have hsum := h.sum
  have hchk := h.check
  have hurg := s.urg
  have hmarks := s.marks
  obtain ⟨hb16, -⟩ := deltas_length hurg hd
  have lpay : (p.drop ((Ip.read p).ihl * 4 + (Tcp.read (p.drop ((Ip.read p).ihl * 4))).doff * 4)).length =
    p.length - ((Ip.read p).ihl * 4 + (Tcp.read (p.drop ((Ip.read p).ihl * 4))).doff * 4) := List.length_drop
  have lo1 : ((p.drop 20).take (((Ip.read p).ihl - 5) * 4)).length = ((Ip.read p).ihl - 5) * 4 := by
    rw [List.length_take, List.length_drop]; omega
  have lo2 : (((p.drop ((Ip.read p).ihl * 4)).drop 20).take (((Tcp.read (p.drop ((Ip.read p).ihl * 4))).doff - 5) * 4)).length =
      ((Tcp.read (p.drop ((Ip.read p).ihl * 4))).doff - 5) * 4 := by
    rw [List.length_take, List.length_drop, List.length_drop]; omega
  rw [← hcat1] at hsum
  generalize hth : Tcp.read (p.drop ((Ip.read p).ihl * 4)) = th at *
  generalize (p.drop 20).take (((Ip.read p).ihl - 5) * 4) = o1 at *
  generalize ((p.drop ((Ip.read p).ihl * 4)).drop 20).take ((th.doff - 5) * 4) = o2 at *
  generalize p.drop ((Ip.read p).ihl * 4 + th.doff * 4) = pay at *
  generalize Ip.read p = ip at *
  -- the slot
  unfold sameShape at hsh
  obtain ⟨sh1, sh2, sh3, sh4, sh5, sh6, sh7, sh8⟩ := of_decide_eq_true hsh
  have M := R.slots cs (by rw [← sh1]; exact hv4)
  have hS1 := S.ip
  have hS2 := S.tcp
  have hS3 := S.ipopt
  have hS4 := S.tcpopt
  obtain ⟨hm1, hm2, hm3, hm4⟩ := hm
  have hconn : connOf ip th = connOf (t.cs cs).ip (t.cs cs).tcp := by unfold connOf; rw [hm1, hm2, hm3, hm4]
  have hmk : marksOf ip th = marksOf (t.cs cs).ip (t.cs cs).tcp := by rw [hmarks, hconn, ← M.marks]
  unfold marksOf at hmk
  injection hmk with mk1 mk23
  injection mk23 with mk2 mk3
  obtain ⟨hurp, -⟩ := deltas_cases hurg hd
  -- the octets
  rw [addIdent_eq] at ho hx
  dsimp only at ho hx
  have bits := change_bits ⟨base, hb16⟩ (decide (ip.ident.toNat ≠ (t.cs cs).ip.ident.toNat + 1)) (flag th.flags 8)
  dsimp only at bits
  rw [← hx] at bits
  obtain ⟨-, bt64, bt32, bt16, bt15, bt1, bt2, bt4, bt8⟩ := bits
  generalize hidn : decide (ip.ident.toNat ≠ (t.cs cs).ip.ident.toNat + 1) = idn at *
  generalize hL : (if idn = true then encode (ip.ident - (t.cs cs).ip.ident) else []) = li at *
  have lo : o.length = 4 + l.length + li.length + pay.length := by
    rw [ho]; unfold wire put16; simp only [List.length_append, List.length_cons, List.length_nil]; omega
  have at0 : At (o ++ rest) 0 ([x, UInt8.ofNat cs] ++ put16 th.check ++ (l ++ li) ++ pay) := ⟨rest, by rw [ho]; rfl⟩
  have atc : At (o ++ rest) 2 (put16 th.check) := at0.left.left.right
  have atl : At (o ++ rest) 4 l := at0.left.right.left
  have ati : At (o ++ rest) (4 + l.length) li := at0.left.right.right
  have atp : At (o ++ rest) (4 + l.length + li.length) pay := by
    have := at0.right
    have e : 0 + ([x, UInt8.ofNat cs] ++ put16 th.check ++ (l ++ li)).length = 4 + l.length + li.length := by
      unfold put16; simp only [List.length_append, List.length_cons, List.length_nil]; omega
    rwa [e] at this
  have gx : (o ++ rest).getD 0 0 = x := by rw [ho]; rfl
  have gcs : ((o ++ rest).getD 1 0).toNat = cs := by
    have : (o ++ rest).getD 1 0 = UInt8.ofNat cs := by rw [ho]; rfl
    rw [this, UInt8.toNat_ofNat']
    omega
  have gck : get16 (o ++ rest) 2 = th.check := by
    obtain ⟨y, hy⟩ := atc
    have := get16_drop (o ++ rest) 2 0
    rw [hy, get16_put16] at this
    exact this.symm
  generalize o ++ rest = b at *
  generalize o.length = n at *
  -- the receiver
  have hfl : setFlag (r.cs cs).tcp.flags 8 (flag x 16) = th.flags := by
    rw [bt16, hS2]
    exact setFlag_psh M.syn M.fin M.rst M.ack M.urg fl.syn fl.fin fl.rst fl.ack hurg mk3.symm
  have dip : ∀ {α : Type} (g : Ip → α), (∀ (y : Ip) (k : UInt16), g { y with check := k } = g y) → g (r.cs cs).ip = g (t.cs cs).ip := by
    intro α g hg
    rw [← hg (r.cs cs).ip (t.cs cs).ip.check, hS1]
  have happ := apply_ok (ip := ip) (th := th) (c := t.cs cs)
    (d := { r.cs cs with tcp := { (r.cs cs).tcp with check := get16 b 2, flags := setFlag (r.cs cs).tcp.flags 8 (flag x 16) } })
    (b := b) (x := x) (i := 4) hurg hd bt15 bt1 bt2 bt4 bt8 (by rw [hS2]) (by rw [hS2]) (by rw [hS2]) (dip (·.len) (fun _ _ => rfl))
    (by
      show (r.cs cs).ip.ihl * 4 + (r.cs cs).tcp.doff * 4 = _
      rw [dip (·.ihl) (fun _ _ => rfl), hS2, sh2, sh6])
    (by
      have := M.short
      rw [sh2, sh6]
      exact this)
    (by omega) (by show flag (setFlag _ _ _) 32 = false; rw [hfl]; exact hurg) atl
  have hthe : ({ ({ (r.cs cs).tcp with check := get16 b 2, flags := setFlag (r.cs cs).tcp.flags 8 (flag x 16) } : Tcp) with
      window := th.window, ack := th.ack, seq := th.seq } : Tcp) = th := by
    apply tcp_eq
    · show (r.cs cs).tcp.source = _; rw [hS2, hm3]
    · show (r.cs cs).tcp.dest = _; rw [hS2, hm4]
    · rfl
    · rfl
    · show (r.cs cs).tcp.off = _
      rw [hS2]
      apply u8_ext
      unfold Tcp.doff at sh6
      omega
    · exact hfl
    · rfl
    · exact gck
    · show (r.cs cs).tcp.urp = _; rw [hS2, hurp]
  rw [hthe] at happ
  have hdec : identStep (flag x 32) b (4 + l.length) =
      .ok (ip.ident - (t.cs cs).ip.ident, 4 + l.length + li.length) := by
    rw [bt32]
    unfold identStep
    cases hb : idn with
    | true =>
      rw [hb, if_pos rfl] at hL
      rw [if_pos rfl]
      subst hL
      exact decode_encode _ ati
    | false =>
      rw [hb, if_neg (by decide)] at hL
      rw [if_neg (by decide)]
      subst hL
      rw [hb] at hidn
      have e : ip.ident.toNat = (t.cs cs).ip.ident.toNat + 1 := not_not.1 (of_decide_eq_false hidn)
      have e1 : ip.ident - (t.cs cs).ip.ident = 1 := by
        apply u16_ext
        have := ip.ident.toNat_lt
        rw [UInt16.toNat_sub]
        show _ = 1
        omega
      rw [e1]
      rfl
  have hihl : (r.cs cs).ip.ihl = ip.ihl := by rw [dip (·.ihl) (fun _ _ => rfl), sh2]
  -- the header of the receiver
  have hipe : ({ ({ (r.cs cs).ip with ident := (r.cs cs).ip.ident + (ip.ident - (t.cs cs).ip.ident) } : Ip) with
      len := UInt16.ofNat (n - (4 + l.length + li.length) + ((r.cs cs).ip.ihl * 4 + th.doff * 4)), check := 0 } : Ip) = { ip with check := 0 } := by
    apply ip_eq
    · show (r.cs cs).ip.vihl = ip.vihl
      rw [dip (·.vihl) (fun _ _ => rfl)]
      apply u8_ext
      unfold Ip.version at sh1
      unfold Ip.ihl at sh2
      omega
    · show (r.cs cs).ip.tos = ip.tos
      rw [dip (·.tos) (fun _ _ => rfl), sh3]
    · show UInt16.ofNat _ = ip.len
      apply u16_ext
      have := ip.len.toNat_lt
      rw [UInt16.toNat_ofNat', hihl]
      omega
    · show (r.cs cs).ip.ident + _ = ip.ident
      rw [dip (·.ident) (fun _ _ => rfl)]
      exact u16_back _ _
    · show (r.cs cs).ip.frag = ip.frag
      rw [dip (·.frag) (fun _ _ => rfl)]
      apply u16_ext
      have q1 := frag_low M.frag
      have q2 := frag_low hf
      have q3 := frag_df sh4
      omega
    · show (r.cs cs).ip.ttl = ip.ttl
      rw [dip (·.ttl) (fun _ _ => rfl), sh5]
    · show (r.cs cs).ip.proto = ip.proto
      rw [dip (·.proto) (fun _ _ => rfl), M.proto, hp]
    · rfl
    · show (r.cs cs).ip.saddr = ip.saddr
      rw [dip (·.saddr) (fun _ _ => rfl), hm1]
    · show (r.cs cs).ip.daddr = ip.daddr
      rw [dip (·.daddr) (fun _ _ => rfl), hm2]
  -- the slot of the receiver
  have e1 : (r.cs cs).ipopt.take ((ip.ihl - 5) * 4) = o1 := by
    have e := hS3
    rw [← sh2] at e
    rw [e]
    by_cases h5 : 5 < ip.ihl
    · have := sh7 h5
      rw [lo1] at this
      exact this.symm
    · have z : (ip.ihl - 5) * 4 = 0 := by omega
      rw [z] at lo1 ⊢
      rw [List.take_zero, List.eq_nil_of_length_eq_zero lo1]
  have e2 : (r.cs cs).tcpopt.take ((th.doff - 5) * 4) = o2 := by
    have e := hS4
    rw [← sh6] at e
    rw [e]
    by_cases h5 : 5 < th.doff
    · have := sh8 h5
      rw [lo2] at this
      exact this.symm
    · have z : (th.doff - 5) * 4 = 0 := by omega
      rw [z] at lo2 ⊢
      rw [List.take_zero, List.eq_nil_of_length_eq_zero lo2]
  have hpay : (b.drop (4 + l.length + li.length)).take (n - (4 + l.length + li.length)) = pay := by
    obtain ⟨y, hy⟩ := atp
    have e : n - (4 + l.length + li.length) = pay.length := by omega
    rw [hy, e, List.take_left]
  have hck : csum (({ ip with check := 0 } : Ip).bytes ++ o1) = ip.check := by
    have := csum_hole (h1 := ip.before) (h2 := ip.after ++ o1) ip.check (show 10 % 2 = 0 from rfl) (by
      rw [ip_bytes_split] at hsum
      rw [← List.append_assoc]
      exact hsum) hchk
    rw [ip_bytes_split]
    rw [← List.append_assoc] at this
    exact this
  have hreb := rebuild_ok (c := { ip := { ip with check := 0 }, tcp := th, ipopt := (r.cs cs).ipopt, tcpopt := (r.cs cs).tcpopt })
    (b := b) (i := 4 + l.length + li.length) hpay (by omega) hi hs3 (hroom cs) (by
      show ip.ihl * 4 + th.doff * 4 + _ ≤ _
      omega)
  have hreb' : rebuild { ip := { ip with check := 0 }, tcp := th, ipopt := (r.cs cs).ipopt, tcpopt := (r.cs cs).tcpopt } b
      (4 + l.length + li.length) (n - (4 + l.length + li.length)) = .ok p := by
    rw [hreb]
    congr 1
    show ({ ip with check := csum (({ ip with check := 0 } : Ip).bytes ++ (r.cs cs).ipopt.take ((ip.ihl - 5) * 4)) } : Ip).bytes ++
      (r.cs cs).ipopt.take ((ip.ihl - 5) * 4) ++ (th.bytes ++ (r.cs cs).tcpopt.take ((th.doff - 5) * 4)) ++ pay = p
    rw [e1, e2, hck]
    exact hcat2
  have hblen : 4 ≤ b.length := by
    have := atc.length (by unfold put16; simp)
    unfold put16 at this
    simp only [List.length_cons, List.length_nil] at this
    omega
  refine ⟨⟨t.n, setSlot r.cs cs { ip := { ip with check := 0 }, tcp := th, ipopt := (r.cs cs).ipopt, tcpopt := (r.cs cs).tcpopt },
    cs, false⟩, ?_, ?_⟩
  · unfold Rx.packet
    rw [if_neg (by decide), if_pos rfl]
    unfold Rx.uncompress
    rw [if_neg (by omega), gx, bt64, if_pos rfl, gcs, hrn, if_neg (by omega)]
    unfold Rx.withSlot
    dsimp only
    rw [if_neg (by omega), if_neg (by omega), if_neg (by omega)]
    show (applyChanges x _ b 4 >>= _) = _
    rw [happ, sbind_ok]
    dsimp only
    rw [hdec, sbind_ok]
    dsimp only
    rw [if_neg (by omega)]
    have hipe' := hipe
    dsimp only at hipe'
    have hihl' : ({ (r.cs cs).ip with ident := (r.cs cs).ip.ident + (ip.ident - (t.cs cs).ip.ident) } : Ip).ihl = (r.cs cs).ip.ihl := rfl
    rw [hihl', hipe', hreb', sbind_ok]
  · refine ⟨hrn.symm, ?_, ?_, ?_⟩
    · intro i
      show Room (setSlot r.cs cs _ i)
      unfold setSlot
      split
      · exact hroom cs
      · exact hroom i
    · intro i hi'
      exact if_neg hi'
    · show Same (setSlot t.cs cs _ cs) (setSlot r.cs cs _ cs)
      unfold setSlot
      rw [if_pos rfl, if_pos rfl]
      refine ⟨rfl, rfl, ?_, ?_⟩
      · show (r.cs cs).ipopt.take ((ip.ihl - 5) * 4) = (t.cs cs).ipopt.take ((ip.ihl - 5) * 4)
        rw [sh2]; exact hS3
      · show (r.cs cs).tcpopt.take ((th.doff - 5) * 4) = (t.cs cs).tcpopt.take ((th.doff - 5) * 4)
        rw [sh6]; exact hS4

/-- The sender when it has sent a compressed packet. -/
theorem com_inv {f : Conn → Nat × Nat × Nat} {t : Tx} {p : List UInt8} {cs : Nat} (R : TxInv f t) (h : Good f p)
    (hp : (Ip.read p).proto = 6) (hf : (Ip.read p).frag &&& 0x3fff = 0) (fl : Flow (Tcp.read (p.drop ((Ip.read p).ihl * 4)))) :
    TxInv f { t with cs := setSlot t.cs cs { (t.cs cs) with ip := Ip.read p, tcp := Tcp.read (p.drop ((Ip.read p).ihl * 4)) } } := by
  obtain ⟨l, hring⟩ := R.ring
  refine ⟨R.pos, R.top, ⟨l, ⟨hring.path, hring.last, hring.nodup, hring.lt⟩⟩, ?_, ?_⟩
  · intro i hver
    show Memo f (setSlot t.cs cs _ i)
    have hver' : (setSlot t.cs cs { (t.cs cs) with ip := Ip.read p, tcp := Tcp.read (p.drop ((Ip.read p).ihl * 4)) } i).ip.version = 4 := hver
    unfold setSlot at hver' ⊢
    by_cases hi' : i = cs
    · rw [if_pos hi']
      exact memo_of h hp hf fl rfl rfl
    · rw [if_neg hi'] at hver' ⊢
      exact R.slots i hver'
  · intro i
    show Room (setSlot t.cs cs _ i)
    unfold setSlot
    split
    · exact R.room cs
    · exact R.room i

/-! ## All packets -/

theorem TxInv.turn {f : Conn → Nat × Nat × Nat} {t : Tx} (R : TxInv f t) {t' : Tx} (h1 : t'.n = t.n) (h2 : t'.cs = t.cs)
    (h3 : ∃ l, RingOf t' l) : TxInv f t' := by
  refine ⟨by rw [h1]; exact R.pos, by rw [h1]; exact R.top, h3, ?_, ?_⟩
  · rw [h2]; exact R.slots
  · rw [h2]; exact R.room

theorem front_n (t : Tx) (a b : Nat) : (t.front a b).n = t.n := by unfold Tx.front; split <;> [rfl; (split <;> rfl)]
theorem front_cs (t : Tx) (a b : Nat) : (t.front a b).cs = t.cs := by unfold Tx.front; split <;> [rfl; (split <;> rfl)]

/-- What is sent for a packet: index and octets. -/
inductive Sent (t t' : Tx) (p : List UInt8) : Nat → List UInt8 → Prop where
  /-- The packet itself. -/
  | plain : t' = t → Sent t t' p 0 p
  /-- The packet with the number of a slot; the receiver then knows this slot. -/
  | full (cs : Nat) : cs < t.n → (∀ i, i ≠ cs → t'.cs i = t.cs i) →
      (∀ r : Rx, r.n = t.n → (∀ i, Room (r.cs i)) → ∀ rest, ∃ r',
        r.packet (p.set 9 (UInt8.ofNat cs) ++ rest) (p.set 9 (UInt8.ofNat cs)).length 1 = .ok (r', p) ∧ After t' r r' cs) →
      Sent t t' p 1 (p.set 9 (UInt8.ofNat cs))
  /-- The changes; a receiver that knows the slot makes the packet of them. -/
  | short (cs : Nat) (x : UInt8) (l : List UInt8) : cs < t.n → (∀ i, i ≠ cs → t'.cs i = t.cs i) → flag x 64 = true → 2 ≤ l.length →
      (t.cs cs).ip.version = 4 →
      (∀ r : Rx, r.n = t.n → (∀ i, Room (r.cs i)) → Same (t.cs cs) (r.cs cs) → ∀ rest, p.length ≤ (x :: UInt8.ofNat cs :: l ++ rest).length → ∃ r',
        r.packet (x :: UInt8.ofNat cs :: l ++ rest) (x :: UInt8.ofNat cs :: l).length 2 = .ok (r', p) ∧ After t' r r' cs) →
      Sent t t' p 2 (x :: UInt8.ofNat cs :: l)

/-- What becomes of a packet. -/
theorem step {f : Conn → Nat × Nat × Nat} {t : Tx} {p : List UInt8} (R : TxInv f t) (h : Good f p) :
    ∃ t' i o, t.packet p = .ok (t', i, o) ∧ o.length ≤ p.length ∧ TxInv f t' ∧ t'.n = t.n ∧ Sent t t' p i o := by
  have hpos := R.pos
  have hi := h.ihl
  have hhdr := h.hdr
  have plain : t.compress p = .ok (t, p) →
      ∃ t' i o, t.packet p = .ok (t', i, o) ∧ o.length ≤ p.length ∧ TxInv f t' ∧ t'.n = t.n ∧ Sent t t' p i o := fun e =>
    ⟨t, 0, p, packet_plain h e, Nat.le_refl _, R, rfl, .plain rfl⟩
  by_cases hc1 : (Ip.read p).proto ≠ 6 ∨ (Ip.read p).frag &&& 0x3fff ≠ 0
  · apply plain
    unfold Tx.compress
    dsimp only
    rw [if_neg (by omega), if_neg (by omega), if_pos hc1]
  have hp : (Ip.read p).proto = 6 := by by_contra hn; exact hc1 (.inl hn)
  have hf : (Ip.read p).frag &&& 0x3fff = 0 := by by_contra hn; exact hc1 (.inr hn)
  have s := h.tcp hp hf
  have hs1 := s.room
  have hs2 := s.fits
  have hs3 := s.doff
  have hq : (p.drop ((Ip.read p).ihl * 4)).length = p.length - (Ip.read p).ihl * 4 := List.length_drop
  by_cases hc2 : flag (Tcp.read (p.drop ((Ip.read p).ihl * 4))).flags 2 ∨ flag (Tcp.read (p.drop ((Ip.read p).ihl * 4))).flags 1 ∨
      flag (Tcp.read (p.drop ((Ip.read p).ihl * 4))).flags 4 ∨ flag (Tcp.read (p.drop ((Ip.read p).ihl * 4))).flags 16 = false
  · apply plain
    unfold Tx.compress
    dsimp only
    rw [if_neg (by omega), if_neg (by omega), if_neg hc1, if_neg (by omega), if_neg (by omega), if_neg (by omega), if_pos hc2]
  have fl : Flow (Tcp.read (p.drop ((Ip.read p).ihl * 4))) := by
    simp only [not_or, Bool.not_eq_true, Bool.not_eq_false] at hc2
    exact ⟨hc2.1, hc2.2.1, hc2.2.2.1, hc2.2.2.2⟩
  obtain ⟨l, hring⟩ := R.ring
  obtain ⟨fd, lcs, cs, l1, l2, hsrch, hl, hlast, hmiss, hhit⟩ := hring.search (Ip.read p) (Tcp.read (p.drop ((Ip.read p).ihl * 4)))
  have hcs : cs < t.n := hring.lt cs (by rw [hl]; simp)
  have hstart : t.compress p = t.compress p := rfl
  conv at hstart => rhs; unfold Tx.compress
  dsimp only at hstart
  rw [if_neg (by omega), if_neg (by omega), if_neg hc1, if_neg (by omega), if_neg (by omega), if_neg (by omega), if_neg hc2,
    if_neg (by omega), hsrch, sbind_ok] at hstart
  have unc : ∀ t1 : Tx, t1.n = t.n → t1.cs = t.cs → (∃ l, RingOf t1 l) →
      t.compress p = .ok (t1.uncompressed cs (Ip.read p) (Tcp.read (p.drop ((Ip.read p).ihl * 4)))
        ((p.drop 20).take (((Ip.read p).ihl - 5) * 4))
        (((p.drop ((Ip.read p).ihl * 4)).drop 20).take (((Tcp.read (p.drop ((Ip.read p).ihl * 4))).doff - 5) * 4)) p) →
      ∃ t' i o, t.packet p = .ok (t', i, o) ∧ o.length ≤ p.length ∧ TxInv f t' ∧ t'.n = t.n ∧ Sent t t' p i o := by
    intro t1 e1 e2 e3 e4
    have R1 : TxInv f t1 := R.turn e1 e2 e3
    refine ⟨_, 1, _, packet_unc h e4, by rw [List.length_set], unc_inv R1 h hp hf fl, e1, .full cs hcs ?_ ?_⟩
    · intro i hi'
      show setSlot t1.cs cs _ i = _
      unfold setSlot
      rw [if_neg hi', e2]
    · intro r hrn hroom rest
      exact unc_step R1 (by rw [hrn, e1]) hroom h hp hf fl (by omega) rest
  cases fd with
  | false =>
    rw [if_neg Bool.false_ne_true] at hstart
    have e := hmiss rfl
    subst e
    rw [hl] at hring
    obtain ⟨l', hr', -⟩ := hring.rotate hlast
    exact unc { t with oldest := lcs } rfl rfl ⟨l', hr'⟩ hstart
  | true =>
    rw [if_pos rfl] at hstart
    rw [hl] at hring
    obtain ⟨l', hr', -⟩ := hring.front hlast
    have R1 : TxInv f (t.front lcs cs) := R.turn (front_n _ _ _) (front_cs _ _ _) ⟨l', hr'⟩
    have hm := hhit rfl
    by_cases hsh : sameShape (Ip.read p) (Tcp.read (p.drop ((Ip.read p).ihl * 4))) ((p.drop 20).take (((Ip.read p).ihl - 5) * 4))
        (((p.drop ((Ip.read p).ihl * 4)).drop 20).take (((Tcp.read (p.drop ((Ip.read p).ihl * 4))).doff - 5) * 4)) (t.cs cs) = true
    · rw [if_pos hsh] at hstart
      cases hd : deltas (Ip.read p) (Tcp.read (p.drop ((Ip.read p).ihl * 4))) (t.cs cs)
          ((Ip.read p).ihl * 4 + (Tcp.read (p.drop ((Ip.read p).ihl * 4))).doff * 4) with
      | none =>
        rw [hd] at hstart
        exact unc (t.front lcs cs) (front_n _ _ _) (front_cs _ _ _) ⟨l', hr'⟩ hstart
      | some bl =>
        obtain ⟨base, ch⟩ := bl
        rw [hd] at hstart
        dsimp only at hstart
        obtain ⟨hb16, hch⟩ := deltas_length s.urg hd
        have hver : (t.cs cs).ip.version = 4 := by
          unfold sameShape at hsh
          obtain ⟨sh1, -⟩ := of_decide_eq_true hsh
          rw [← sh1]; exact h.version
        have hai : (addIdent (Ip.read p) (Tcp.read (p.drop ((Ip.read p).ihl * 4))) (t.cs cs) (base, ch)).2.length ≤ 12 := by
          rw [addIdent_eq]
          dsimp only
          rw [List.length_append]
          have := encode_length ((Ip.read p).ident - (t.cs cs).ip.ident)
          split
          · omega
          · simp only [List.length_nil]; omega
        have hbits : UInt8.ofNat ((addIdent (Ip.read p) (Tcp.read (p.drop ((Ip.read p).ihl * 4))) (t.cs cs) (base, ch)).1 + 0x40 + 0x80) &&& 0x80 ≠ 0 := by
          rw [addIdent_eq]
          exact (change_bits ⟨base, hb16⟩ (decide ((Ip.read p).ident.toNat ≠ (t.cs cs).ip.ident.toNat + 1)) (flag (Tcp.read (p.drop ((Ip.read p).ihl * 4))).flags 8)).1
        have hbits64 : flag (UInt8.ofNat ((addIdent (Ip.read p) (Tcp.read (p.drop ((Ip.read p).ihl * 4))) (t.cs cs) (base, ch)).1 + 0x40 + 0x80) &&& 0x7f) 64 = true := by
          rw [addIdent_eq]
          exact (change_bits ⟨base, hb16⟩ (decide ((Ip.read p).ident.toNat ≠ (t.cs cs).ip.ident.toNat + 1)) (flag (Tcp.read (p.drop ((Ip.read p).ihl * 4))).flags 8)).2.1
        have hlo : ∀ y, (wire y cs (Tcp.read (p.drop ((Ip.read p).ihl * 4))).check
            (addIdent (Ip.read p) (Tcp.read (p.drop ((Ip.read p).ihl * 4))) (t.cs cs) (base, ch)).2
            (p.drop ((Ip.read p).ihl * 4 + (Tcp.read (p.drop ((Ip.read p).ihl * 4))).doff * 4))).length ≤ p.length := by
          intro y
          unfold wire put16
          simp only [List.length_append, List.length_cons, List.length_nil, List.length_drop]
          omega
        have hstart' : t.compress p = .ok ({ t.front lcs cs with cs := setSlot (t.front lcs cs).cs cs { ((t.front lcs cs).cs cs) with ip := Ip.read p, tcp := Tcp.read (p.drop ((Ip.read p).ihl * 4)) } },
            wire (UInt8.ofNat ((addIdent (Ip.read p) (Tcp.read (p.drop ((Ip.read p).ihl * 4))) (t.cs cs) (base, ch)).1 + 0x40 + 0x80)) cs
              (Tcp.read (p.drop ((Ip.read p).ihl * 4))).check
              (addIdent (Ip.read p) (Tcp.read (p.drop ((Ip.read p).ihl * 4))) (t.cs cs) (base, ch)).2
              (p.drop ((Ip.read p).ihl * 4 + (Tcp.read (p.drop ((Ip.read p).ihl * 4))).doff * 4))) := by
          rw [hstart]
          exact if_neg (Nat.not_lt.2 (hlo _))
        refine ⟨{ t.front lcs cs with cs := setSlot (t.front lcs cs).cs cs { ((t.front lcs cs).cs cs) with ip := Ip.read p, tcp := Tcp.read (p.drop ((Ip.read p).ihl * 4)) } },
          2, wire (UInt8.ofNat ((addIdent (Ip.read p) (Tcp.read (p.drop ((Ip.read p).ihl * 4))) (t.cs cs) (base, ch)).1 + 0x40 + 0x80) &&& 0x7f) cs
              (Tcp.read (p.drop ((Ip.read p).ihl * 4))).check
              (addIdent (Ip.read p) (Tcp.read (p.drop ((Ip.read p).ihl * 4))) (t.cs cs) (base, ch)).2
              (p.drop ((Ip.read p).ihl * 4 + (Tcp.read (p.drop ((Ip.read p).ihl * 4))).doff * 4)), ?_, hlo _, com_inv R1 h hp hf fl, front_n _ _ _,
          .short cs _ (put16 (Tcp.read (p.drop ((Ip.read p).ihl * 4))).check ++
              (addIdent (Ip.read p) (Tcp.read (p.drop ((Ip.read p).ihl * 4))) (t.cs cs) (base, ch)).2 ++
              p.drop ((Ip.read p).ihl * 4 + (Tcp.read (p.drop ((Ip.read p).ihl * 4))).doff * 4)) hcs ?_ hbits64 ?_ hver ?_⟩
        · unfold Tx.packet
          rw [hstart', sbind_ok]
          exact if_pos hbits
        · intro i hi'
          show setSlot (t.front lcs cs).cs cs _ i = _
          unfold setSlot
          rw [if_neg hi', front_cs]
        · rw [List.length_append, List.length_append]
          show 2 ≤ 2 + _ + _
          omega
        · intro r hrn hroom hsame rest hb
          exact com_step R1 (by rw [front_n]; exact hrn) hroom (by rw [front_cs]; exact hsame) h hp hf fl (by rw [front_n]; exact hcs)
            (by rw [front_cs]; exact hm) (by rw [front_cs]; exact hsh)
            (by rw [front_cs]; exact hd) _ (by rw [front_cs]) rest _ (by rw [front_cs]; rfl) hb
    · rw [if_neg hsh] at hstart
      exact unc (t.front lcs cs) (front_n _ _ _) (front_cs _ _ _) ⟨l', hr'⟩ hstart

/-- At the beginning. -/
theorem txinv_init (f : Conn → Nat × Nat × Nat) {slots : Nat} (h1 : 1 ≤ slots) (h2 : slots ≤ 255) : TxInv f (Tx.init slots) := by
  refine ⟨h1, h2, ⟨_, ring_init h1⟩, ?_, ?_⟩
  · intro i hi
    exact absurd hi (by show ¬ Cs.zero.ip.version = 4; decide)
  · intro i; exact ⟨List.length_replicate, List.length_replicate⟩

end Verif.Slhc
