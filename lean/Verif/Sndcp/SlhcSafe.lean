import Verif.Sndcp.SlhcStep

/-!
# Header compression: memory safety
-/
namespace Verif.Slhc

/-! ## Sender -/

/-- The slots of the sender are linked. -/
def TInv (t : Tx) : Prop := 1 ≤ t.n ∧ ∃ l, RingOf t l

theorem TInv.slot {t : Tx} (h : TInv t) (f : Nat → Cs) : TInv { t with cs := f } := by
  obtain ⟨h1, l, h2⟩ := h
  exact ⟨h1, l, ⟨h2.path, h2.last, h2.nodup, h2.lt⟩⟩

theorem orHead_length (l : List UInt8) (m : UInt8) : (orHead l m).length = l.length := by
  cases l <;> rfl

theorem deltas_len {ip : Ip} {th : Tcp} {c : Cs} {hlen : Nat} {r : Nat × List UInt8} (h : deltas ip th c hlen = some r) : r.2.length ≤ 12 := by
  have e0 := encode_length th.urp
  have e1 := encode_length (th.window - c.tcp.window)
  have e2 := encode_length (UInt16.ofNat (th.ack - c.tcp.ack).toNat)
  have e3 := encode_length (UInt16.ofNat (th.seq - c.tcp.seq).toNat)
  have key : ((if flag th.flags 32 then encode th.urp else []) ++ (if th.window - c.tcp.window ≠ 0 then encode (th.window - c.tcp.window) else []) ++
      (if th.ack - c.tcp.ack ≠ 0 then encode (UInt16.ofNat (th.ack - c.tcp.ack).toNat) else []) ++
      (if th.seq - c.tcp.seq ≠ 0 then encode (UInt16.ofNat (th.seq - c.tcp.seq).toNat) else [])).length ≤ 12 := by
    rw [List.length_append, List.length_append, List.length_append]
    split <;> split <;> split <;> split <;> (try simp only [List.length_nil]) <;> omega
  unfold deltas at h
  dsimp only at h
  generalize (if flag th.flags 32 then encode th.urp else []) ++ (if th.window - c.tcp.window ≠ 0 then encode (th.window - c.tcp.window) else []) ++
      (if th.ack - c.tcp.ack ≠ 0 then encode (UInt16.ofNat (th.ack - c.tcp.ack).toNat) else []) ++
      (if th.seq - c.tcp.seq ≠ 0 then encode (UInt16.ofNat (th.seq - c.tcp.seq).toNat) else []) = L at h key
  generalize (if flag th.flags 32 then 1 else 0) + (if th.window - c.tcp.window ≠ 0 then 2 else 0) + (if th.ack - c.tcp.ack ≠ 0 then 4 else 0) +
    (if th.seq - c.tcp.seq ≠ 0 then 8 else 0) = ch at h
  split at h
  · cases h
  · split at h
    · cases h
    · split at h
      · split at h
        · cases h; simp
        · cases h
      · split at h
        · cases h
        · split at h
          · cases h; simp
          · split at h
            · cases h; simp
            · cases h; exact key

theorem addIdent_len (ip : Ip) (th : Tcp) (c : Cs) (r : Nat × List UInt8) : (addIdent ip th c r).2.length ≤ r.2.length + 3 := by
  have := encode_length (ip.ident - c.ip.ident)
  unfold addIdent
  split
  · dsimp only; rw [List.length_append]; omega
  · dsimp only; omega

/-- Compression of a packet whose headers are inside the packet. -/
theorem compress_safe {t : Tx} (h : TInv t) (p : List UInt8)
    (hin : 20 ≤ p.length → (Ip.read p).proto = 6 → (Ip.read p).frag &&& 0x3fff = 0 → 5 ≤ (Ip.read p).ihl ∧ (Ip.read p).ihl * 4 + 20 ≤ p.length) :
    ∃ t' o, t.compress p = .ok (t', o) ∧ o.length ≤ p.length ∧ TInv t' ∧ (p ≠ [] → o ≠ []) := by
  obtain ⟨h1, l, hring⟩ := h
  have nn : ∀ {o : List UInt8}, o.length = p.length → p ≠ [] → o ≠ [] := by
    intro o e hp e'
    subst e'
    exact hp (List.eq_nil_of_length_eq_zero e.symm)
  have keep : ∃ t' o, (SRes.ok (t, p) : SRes (Tx × List UInt8)) = .ok (t', o) ∧ o.length ≤ p.length ∧ TInv t' ∧ (p ≠ [] → o ≠ []) :=
    ⟨t, p, rfl, Nat.le_refl _, ⟨h1, l, hring⟩, fun h => h⟩
  by_cases h20 : p.length < 20
  · unfold Tx.compress
    rw [if_neg (by omega), if_pos h20]
    exact keep
  by_cases hc1 : (Ip.read p).proto ≠ 6 ∨ (Ip.read p).frag &&& 0x3fff ≠ 0
  · unfold Tx.compress
    dsimp only
    rw [if_neg (by omega), if_neg h20, if_pos hc1]
    exact keep
  have hp : (Ip.read p).proto = 6 := by by_contra hn; exact hc1 (.inl hn)
  have hf : (Ip.read p).frag &&& 0x3fff = 0 := by by_contra hn; exact hc1 (.inr hn)
  obtain ⟨hi, hr⟩ := hin (by omega) hp hf
  have hq : (p.drop ((Ip.read p).ihl * 4)).length = p.length - (Ip.read p).ihl * 4 := List.length_drop
  by_cases hlen : p.length < (Ip.read p).ihl * 4 + (Tcp.read (p.drop ((Ip.read p).ihl * 4))).doff * 4
  · unfold Tx.compress
    dsimp only
    rw [if_neg (by omega), if_neg h20, if_neg hc1, if_neg (by omega), if_pos hlen]
    exact keep
  by_cases hc2 : flag (Tcp.read (p.drop ((Ip.read p).ihl * 4))).flags 2 ∨ flag (Tcp.read (p.drop ((Ip.read p).ihl * 4))).flags 1 ∨
      flag (Tcp.read (p.drop ((Ip.read p).ihl * 4))).flags 4 ∨ flag (Tcp.read (p.drop ((Ip.read p).ihl * 4))).flags 16 = false
  · unfold Tx.compress
    dsimp only
    rw [if_neg (by omega), if_neg h20, if_neg hc1, if_neg (by omega), if_neg hlen, if_neg (by omega), if_pos hc2]
    exact keep
  obtain ⟨fd, lcs, cs, l1, l2, hsrch, hl, hlast, hmiss, hhit⟩ := hring.search (Ip.read p) (Tcp.read (p.drop ((Ip.read p).ihl * 4)))
  have unc : ∀ t1 : Tx, TInv t1 → ∀ a b c d, ∃ t' o, (SRes.ok (t1.uncompressed cs a b c d p)) = .ok (t', o) ∧ o.length ≤ p.length ∧ TInv t' ∧
      (p ≠ [] → o ≠ []) := by
    intro t1 i1 a b c d
    have hlo : (orHead (p.set 9 (UInt8.ofNat cs)) 0x70).length = p.length := by rw [orHead_length, List.length_set]
    exact ⟨_, _, rfl, by rw [hlo], i1.slot _, nn hlo⟩
  unfold Tx.compress
  dsimp only
  rw [if_neg (by omega), if_neg h20, if_neg hc1, if_neg (by omega), if_neg hlen, if_neg (by omega), if_neg hc2, if_neg (by omega), hsrch, sbind_ok]
  cases fd with
  | false =>
    rw [if_neg Bool.false_ne_true]
    have e := hmiss rfl
    subst e
    rw [hl] at hring
    obtain ⟨l', hr', -⟩ := hring.rotate hlast
    exact unc { t with oldest := lcs } ⟨h1, l', hr'⟩ _ _ _ _
  | true =>
    rw [if_pos rfl]
    rw [hl] at hring
    obtain ⟨l', hr', -⟩ := hring.front hlast
    have i1 : TInv (t.front lcs cs) := ⟨by rw [front_n]; exact h1, l', hr'⟩
    by_cases hsh : sameShape (Ip.read p) (Tcp.read (p.drop ((Ip.read p).ihl * 4))) ((p.drop 20).take (((Ip.read p).ihl - 5) * 4))
        (((p.drop ((Ip.read p).ihl * 4)).drop 20).take (((Tcp.read (p.drop ((Ip.read p).ihl * 4))).doff - 5) * 4)) (t.cs cs) = true
    · rw [if_pos hsh]
      cases hd : deltas (Ip.read p) (Tcp.read (p.drop ((Ip.read p).ihl * 4))) (t.cs cs)
          ((Ip.read p).ihl * 4 + (Tcp.read (p.drop ((Ip.read p).ihl * 4))).doff * 4) with
      | none => exact unc _ i1 _ _ _ _
      | some r =>
        have h12 := deltas_len hd
        have h15 := addIdent_len (Ip.read p) (Tcp.read (p.drop ((Ip.read p).ihl * 4))) (t.cs cs) r
        have hlo : ([UInt8.ofNat ((addIdent (Ip.read p) (Tcp.read (p.drop ((Ip.read p).ihl * 4))) (t.cs cs) r).1 + 0x40 + 0x80), UInt8.ofNat cs] ++
            put16 (Tcp.read (p.drop ((Ip.read p).ihl * 4))).check ++
            (addIdent (Ip.read p) (Tcp.read (p.drop ((Ip.read p).ihl * 4))) (t.cs cs) r).2 ++
            p.drop ((Ip.read p).ihl * 4 + (Tcp.read (p.drop ((Ip.read p).ihl * 4))).doff * 4)).length ≤ p.length := by
          unfold put16
          simp only [List.length_append, List.length_cons, List.length_nil, List.length_drop]
          omega
        dsimp only
        rw [if_neg (Nat.not_lt.2 hlo)]
        exact ⟨_, _, rfl, hlo, i1.slot _, fun _ => by simp⟩
    · rw [if_neg hsh]
      exact unc _ i1 _ _ _ _

theorem packet_safe {t : Tx} (h : TInv t) (p : List UInt8) (hne : p ≠ [])
    (hin : 20 ≤ p.length → (Ip.read p).proto = 6 → (Ip.read p).frag &&& 0x3fff = 0 → 5 ≤ (Ip.read p).ihl ∧ (Ip.read p).ihl * 4 + 20 ≤ p.length) :
    ∃ t' i o, t.packet p = .ok (t', i, o) ∧ o.length ≤ p.length ∧ TInv t' := by
  obtain ⟨t', o, h1, h2, h3, h4⟩ := compress_safe h p hin
  unfold Tx.packet
  rw [h1, sbind_ok]
  cases o with
  | nil => exact absurd rfl (h4 hne)
  | cons a l =>
    dsimp only
    split
    · exact ⟨_, _, _, rfl, h2, h3⟩
    · split
      · exact ⟨_, _, _, rfl, h2, h3⟩
      · exact ⟨_, _, _, rfl, Nat.le_refl _, h3⟩

theorem tinv_init {n : Nat} (h : 1 ≤ n) : TInv (Tx.init n) := ⟨h, _, ring_init h⟩

/-! ## Receiver -/

/-- The current slot of the receiver exists unless packets without a number are refused. -/
structure RInv (r : Rx) : Prop where
  pos : 1 ≤ r.n
  recv : r.toss = false → r.recv < r.n

theorem rinv_init {n : Nat} (h : 1 ≤ n) : RInv (Rx.init n) :=
  ⟨h, fun h => Bool.noConfusion h⟩

theorem RInv.tossed {r : Rx} (h : RInv r) : RInv { r with toss := true } := ⟨h.pos, fun h => Bool.noConfusion h⟩

theorem decode_safe {b : List UInt8} {i : Nat} (h : i + 2 < b.length) : ∃ x j, decode b i = .ok (x, j) ∧ i < j ∧ j ≤ i + 3 := by
  unfold decode
  rw [if_neg (by omega)]
  split
  · rw [if_neg (by omega)]; exact ⟨_, _, rfl, by omega, by omega⟩
  · exact ⟨_, _, rfl, by omega, by omega⟩

theorem decodeIf_safe (f : Bool) {b : List UInt8} {i : Nat} (h : i + 2 < b.length) : ∃ x j, decodeIf f b i = .ok (x, j) ∧ i ≤ j ∧ j ≤ i + 3 := by
  unfold decodeIf
  split
  · obtain ⟨x, j, h1, h2, h3⟩ := decode_safe h
    exact ⟨x, j, h1, by omega, h3⟩
  · exact ⟨_, _, rfl, by omega, by omega⟩

theorem identStep_safe (f : Bool) {b : List UInt8} {i : Nat} (h : i + 2 < b.length) : ∃ x j, identStep f b i = .ok (x, j) ∧ i ≤ j ∧ j ≤ i + 3 := by
  unfold identStep
  split
  · obtain ⟨x, j, h1, h2, h3⟩ := decode_safe h
    exact ⟨x, j, h1, by omega, h3⟩
  · exact ⟨_, _, rfl, by omega, by omega⟩

theorem apply_safe (x : UInt8) (c : Cs) {b : List UInt8} {i : Nat} (h : i + 11 < b.length) :
    ∃ th j, applyChanges x c b i = .ok (th, j) ∧ i ≤ j ∧ j ≤ i + 12 := by
  unfold applyChanges
  dsimp only
  split
  · exact ⟨_, _, rfl, by omega, by omega⟩
  · split
    · exact ⟨_, _, rfl, by omega, by omega⟩
    · obtain ⟨u, i1, a1, a2, a3⟩ := decodeIf_safe (flag x 1) (b := b) (i := i) (by omega)
      obtain ⟨w, i2, b1, b2, b3⟩ := decodeIf_safe (flag x 2) (b := b) (i := i1) (by omega)
      obtain ⟨a, i3, c1, c2, c3⟩ := decodeIf_safe (flag x 4) (b := b) (i := i2) (by omega)
      obtain ⟨s, i4, d1, d2, d3⟩ := decodeIf_safe (flag x 8) (b := b) (i := i3) (by omega)
      rw [a1, sbind_ok]
      dsimp only
      rw [b1, sbind_ok]
      dsimp only
      rw [c1, sbind_ok]
      dsimp only
      rw [d1, sbind_ok]
      exact ⟨_, _, rfl, by omega, by omega⟩

theorem write_safe {b : List UInt8} {i : Nat} {l : List UInt8} (h : i + l.length ≤ b.length) :
    ∃ b', write b i l = .ok b' ∧ b'.length = b.length := by
  refine ⟨_, write_ok h, ?_⟩
  rw [List.length_append, List.length_append, List.length_take, List.length_drop]
  omega

theorem rebuild_safe (c : Cs) {b : List UInt8} {i size : Nat} (h : 120 + size ≤ b.length) : ∃ p, rebuild c b i size = .ok p := by
  have hi := ihl_le c.ip
  have hd := doff_le c.tcp
  have lo1 : (c.ipopt.take ((c.ip.ihl - 5) * 4)).length ≤ 40 := by rw [List.length_take]; omega
  have lo2 : (c.tcpopt.take ((c.tcp.doff - 5) * 4)).length ≤ 40 := by rw [List.length_take]; omega
  unfold rebuild
  dsimp only
  obtain ⟨b1, e1, l1⟩ := write_safe (b := b) (i := c.ip.ihl * 4 + c.tcp.doff * 4) (l := (b.drop i).take size) (by
    rw [List.length_take]; omega)
  rw [e1, sbind_ok]
  obtain ⟨b2, e2, l2⟩ := write_safe (b := b1) (i := 0) (l := c.ip.bytes ++ c.ipopt.take ((c.ip.ihl - 5) * 4)) (by
    rw [List.length_append, ip_bytes_length]; omega)
  rw [e2, sbind_ok]
  obtain ⟨b3, e3, l3⟩ := write_safe (b := b2) (i := 10) (l := put16 (csum (b2.take (c.ip.ihl * 4)))) (by
    show 10 + 2 ≤ _; omega)
  rw [e3, sbind_ok]
  obtain ⟨b4, e4, l4⟩ := write_safe (b := b3) (i := (c.ip.bytes ++ c.ipopt.take ((c.ip.ihl - 5) * 4)).length)
    (l := c.tcp.bytes ++ c.tcpopt.take ((c.tcp.doff - 5) * 4)) (by
    rw [List.length_append, List.length_append, ip_bytes_length, tcp_bytes_length]; omega)
  rw [e4, sbind_ok]
  exact ⟨_, rfl⟩

theorem withSlot_safe {r : Rx} (h : RInv r) (hrecv : r.recv < r.n) (x : UInt8) {b : List UInt8} {n i : Nat} (hi : 1 ≤ i) (hi' : i ≤ 2)
    (hb : n + 117 ≤ b.length) : ∃ r' p, r.withSlot x b n i = .ok (r', p) ∧ RInv r' ∧ r'.n = r.n ∧ (∀ j, j ≠ r.recv → r'.cs j = r.cs j) ∧
      ((∀ j, Room (r.cs j)) → ∀ j, Room (r'.cs j)) := by
  have hpos := h.pos
  have other : ∀ c : Cs, ∀ j, j ≠ r.recv → setSlot r.cs r.recv c j = r.cs j := fun c j hj => if_neg hj
  have room : ∀ c : Cs, c.ipopt = (r.cs r.recv).ipopt → c.tcpopt = (r.cs r.recv).tcpopt → (∀ j, Room (r.cs j)) →
      ∀ j, Room (setSlot r.cs r.recv c j) := by
    intro c e1 e2 h j
    unfold setSlot
    split
    · have := h r.recv
      unfold Room at this ⊢
      rw [e1, e2]; exact this
    · exact h j
  unfold Rx.withSlot
  rw [if_neg (by omega), if_neg (by omega), if_neg (by omega)]
  obtain ⟨th, j, e1, j1, j2⟩ := apply_safe x
    { r.cs r.recv with tcp := { (r.cs r.recv).tcp with check := get16 b i, flags := setFlag (r.cs r.recv).tcp.flags 8 (flag x 16) } }
    (b := b) (i := i + 2) (by omega)
  dsimp only at e1 ⊢
  rw [e1, sbind_ok]
  dsimp only
  obtain ⟨y, k, e2, k1, k2⟩ := identStep_safe (flag x 32) (b := b) (i := j) (by omega)
  rw [e2, sbind_ok]
  dsimp only
  split
  · exact ⟨_, _, rfl, ⟨hpos, fun h => Bool.noConfusion h⟩, rfl, other _, room _ rfl rfl⟩
  · have hre : ∀ c : Cs, ∃ p, rebuild c b k (n - k) = .ok p := fun c => rebuild_safe c (by omega)
    choose g hg using hre
    rw [hg, sbind_ok]
    exact ⟨_, _, rfl, ⟨hpos, h.recv⟩, rfl, other _, room _ rfl rfl⟩

/-- A compressed packet with the number of a slot changes at most this slot. -/
theorem short_any {r : Rx} {cs : Nat} (hcs : cs < r.n) (htop : r.n ≤ 255) (x : UInt8) (hx : flag x 64 = true) (l rest : List UInt8) (hl : 1 ≤ l.length)
    (hb : (x :: UInt8.ofNat cs :: l).length + 117 ≤ (x :: UInt8.ofNat cs :: l ++ rest).length) :
    ∃ r' p, r.packet (x :: UInt8.ofNat cs :: l ++ rest) (x :: UInt8.ofNat cs :: l).length 2 = .ok (r', p) ∧ r'.n = r.n ∧
      (∀ j, j ≠ cs → r'.cs j = r.cs j) ∧ ((∀ j, Room (r.cs j)) → ∀ j, Room (r'.cs j)) := by
  have g0 : (x :: UInt8.ofNat cs :: l ++ rest).getD 0 0 = x := rfl
  have g1 : ((x :: UInt8.ofNat cs :: l ++ rest).getD 1 0).toNat = cs := by
    show (UInt8.ofNat cs).toNat = cs
    rw [UInt8.toNat_ofNat']
    omega
  unfold Rx.packet
  rw [if_neg (by decide), if_pos rfl]
  unfold Rx.uncompress
  rw [if_neg (by simp only [List.length_cons]; omega), g0, if_pos hx, g1, if_neg (by omega)]
  obtain ⟨r', p, h1, -, h2, h3, h4⟩ := withSlot_safe (r := { r with toss := false, recv := cs }) ⟨by show 1 ≤ r.n; omega, fun _ => hcs⟩ hcs x
    (i := 2) (by omega) (by omega) hb
  exact ⟨r', p, h1, h2, h3, h4⟩

theorem remember_safe {r : Rx} (h : RInv r) {b : List UInt8} {n : Nat} (hb : n + 117 ≤ b.length) :
    ∃ r' p, r.remember b n = .ok (r', p) ∧ RInv r' ∧ r'.n = r.n := by
  have hpos := h.pos
  unfold Rx.remember
  dsimp only
  split
  · exact ⟨_, _, rfl, h.tossed, rfl⟩
  · split
    · exact ⟨_, _, rfl, h.tossed, rfl⟩
    · rename_i h20 hihl
      rw [if_neg (by rw [List.length_set]; omega)]
      split
      · exact ⟨_, _, rfl, h.tossed, rfl⟩
      · split
        · exact ⟨_, _, rfl, h.tossed, rfl⟩
        · rename_i hidx
          rw [if_neg (by omega)]
          have hd := doff_le (Tcp.read ((b.set 9 6).drop ((b.getD 0 0).toNat % 16 * 4)))
          rw [if_neg (by rw [List.length_drop, List.length_set]; omega)]
          refine ⟨_, _, rfl, ⟨hpos, fun _ => ?_⟩, rfl⟩
          show (b.getD 9 0).toNat < r.n
          omega

/-- Expansion of any packet, if the buffer has 117 octets more than the packet. -/
theorem expand_safe {r : Rx} (h : RInv r) {b : List UInt8} {n : Nat} (index : Nat) (hb : n + 117 ≤ b.length ∨ (n < 3 ∧ b ≠ [])) :
    ∃ r' p, r.packet b n index = .ok (r', p) ∧ RInv r' ∧ r'.n = r.n := by
  unfold Rx.packet
  split
  · cases b with
    | nil => rcases hb with hb | hb
             · simp at hb
             · exact absurd rfl hb.2
    | cons a l =>
      dsimp only
      rcases hb with hb | hb
      · exact remember_safe h hb
      · unfold Rx.remember
        rw [if_pos (by omega)]
        exact ⟨_, _, rfl, h.tossed, rfl⟩
  · split
    · unfold Rx.uncompress
      split
      · exact ⟨_, _, rfl, h, rfl⟩
      · rename_i h3
        have hb' : n + 117 ≤ b.length := by omega
        split
        · split
          · exact ⟨_, _, rfl, h.tossed, rfl⟩
          · rename_i hi
            have hpos := h.pos
            have hlt : (b.getD 1 0).toNat < r.n := by omega
            have h' : RInv { r with toss := false, recv := (b.getD 1 0).toNat } := ⟨h.pos, fun _ => hlt⟩
            obtain ⟨r', p, h1, h2, h3, -⟩ := withSlot_safe h' hlt (b.getD 0 0) (i := 2) (by omega) (by omega) hb'
            exact ⟨r', p, h1, h2, h3⟩
        · split
          · exact ⟨_, _, rfl, h, rfl⟩
          · rename_i ht
            obtain ⟨r', p, h1, h2, h3, -⟩ := withSlot_safe h (h.recv (by simpa using ht)) (b.getD 0 0) (i := 1) (by omega) (by omega) hb'
            exact ⟨r', p, h1, h2, h3⟩
    · exact ⟨_, _, rfl, h, rfl⟩

end Verif.Slhc
