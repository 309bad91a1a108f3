import Verif.Csn1.Msg

/-!
# The CSN.1 encoder

`osmo_csn1_stream_encode()` walks the same tables as the decoder, reads the members of a C structure and
writes them to a bit vector.  The structure is only read.

libosmocore's `bitvec_write_field()` is modelled as setting the bits inside the vector, most significant
first, and moving the write index only if all of them fitted.
-/
namespace Verif.Csn1

/-- The variables of the encoding loop (`csn1_enc.c:46-56`): the bits of the vector, `*writeIndex`,
`bit_offset` and `remaining_bits_len`. -/
structure ESt where
  vec : Nat → Bool
  wi : Nat
  bo : Nat
  rem : Int

/-- `bitvec_write_field()` of the `n` low bits of `x` into a vector of `len` bits. -/
def ESt.put (len : Nat) (x n : Nat) (s : ESt) : ESt :=
  { s with
    vec := fun i => if s.wi ≤ i ∧ i < s.wi + n ∧ i < len then x.testBit (s.wi + n - 1 - i) else s.vec i
    wi := if s.wi + n ≤ len then s.wi + n else s.wi }

/-- Account for `n` bits written. -/
def ESt.took (s : ESt) (n : Nat) : ESt := { s with bo := s.bo + n, rem := s.rem - n }

/-- The vector as a list of bits. -/
def ESt.bits (len : Nat) (s : ESt) : List Bool := (List.range len).map s.vec

/-- The member of `w` bytes at an address, least significant byte first. -/
def getLe (m : Mem) (a : Nat) : Nat → Nat
  | 0 => 0
  | w + 1 => m a % 256 + 256 * getLe m (a + 1) w

/-- Write the `w` bytes at byte `k` of the member at `off`, which is `sz` bytes long, as `n` bits. -/
def wrBits (m : Mem) (len base off sz k w n : Nat) (s : ESt) : CRes ESt :=
  if k + w ≤ sz then .ok (s.put len (getLe m (base + off + k) w) n) else .ub .outOfBounds

/-- Write `n` elements of one byte each, `bits` bits of each, from byte `k` of the member on. -/
def wrArr (m : Mem) (len base off sz bits : Nat) : Nat → Nat → ESt → CRes ESt
  | 0, _, s => .ok s
  | n + 1, k, s => do
    let s ← wrBits m len base off sz k 1 bits s
    wrArr m len base off sz bits n (k + 1) s

/-- Encode array element `i` with `f`, given the address of the element. -/
def eltE (base off sz esz : Nat) (f : Nat → ESt → CRes ESt) (i : Nat) (s : ESt) : CRes ESt :=
  if (i + 1) * esz ≤ sz then f (base + off + i * esz) s else .ub .outOfBounds

/-- Run `f` on array elements `i`, `i+1`, …, `n` times. -/
def iterE (f : Nat → ESt → CRes ESt) : Nat → Nat → ESt → CRes ESt
  | 0, _, s => .ok s
  | n + 1, i, s => do
    let s ← f i s
    iterE f n (i + 1) s

/-- The loop of `CSN_RECURSIVE_ARRAY` (`csn1_enc.c:1076-1095`): `n` elements of one byte. -/
def recArrE (m : Mem) (len base off sz bits : Nat) : Nat → Nat → ESt → CRes ESt
  | 0, _, s => .ok s
  | n + 1, k, s => do
    let s := (s.put len 1 1).took 1
    let s ← wrBits m len base off sz k 1 bits s
    if s.rem < 0 then .fail errBits
    else recArrE m len base off sz bits n (k + 1) (s.took bits)

/-- The loop of `CSN_RECURSIVE_TARRAY` (`csn1_enc.c:1118-1150`). -/
def recTArrE (len : Nat) (f : Nat → ESt → CRes ESt) : Nat → Nat → ESt → CRes ESt
  | 0, _, s => .ok s
  | n + 1, i, s => do
    let s ← f i ((s.put len 1 1).took 1)
    if s.rem < 0 then .fail errBits else recTArrE len f n (i + 1) s

/-- The loop of `CSN_RECURSIVE_TARRAY_1` (`csn1_enc.c:1187-1222`): no tag before the first element. -/
def recTArr1E (len : Nat) (f : Nat → ESt → CRes ESt) : Nat → Nat → ESt → CRes ESt
  | 0, _, s => .ok s
  | n + 1, i, s => do
    let s ← f i (if i = 0 then s else (s.put len 1 1).took 1)
    if s.rem < 0 then .fail errBits else recTArr1E len f n (i + 1) s

/-- The loop of `CSN_PADDING_BITS` (`csn1_enc.c:1000-1024`); each round writes the odd bits (with a
leading zero) or one octet.  `fuel` bounds the rounds: `rem` is enough. -/
def padE (len : Nat) : Nat → ESt → ESt
  | 0, s => s
  | fuel + 1, s =>
    if s.rem ≤ 0 then s
    else
      let n := s.rem.toNat % 8
      if n > 0 then padE len fuel ((s.put len (0x2B % 2 ^ (n - 1)) n).took n)
      else padE len fuel ((s.put len 0x2B 8).took 8)

mutual

/-- One line of a table other than those steering the walk (`csn1_enc.c:66-449`, `887-1286`); with `u` as
the selected alternative of a union (`csn1_enc.c:498-786`).  `len` is the length of the vector in bits.
Not modelled: callbacks, which no uplink table uses. -/
def encD (m : Mem) (len : Nat) (u : Bool) (base : Nat) : Csn → ESt → CRes ESt
  | .bit off sz orNull, s =>
    if u || s.rem > 0 then do
      let s ← wrBits m len base off sz 0 1 1 s
      .ok (s.took 1)
    else if orNull then .ok (s.took 1)
    else .fail errBits
  | .null _, s => .ok s
  | .uint off sz bits orNull, s =>
    if s.rem ≥ bits then
      if bits ≤ 32 then do
        let s ← wrBits m len base off sz 0 (uintW bits) bits s
        .ok (s.took bits)
      else .fail errGeneral
    else if u then .fail errGeneral
    else if orNull then .ok s
    else .fail errBits
  | .uintOfs off sz bits value, s =>
    if s.rem ≥ bits then
      if bits ≤ 32 then
        if uintW bits ≤ sz then
          -- the difference may be negative: its low bits are written
          .ok ((s.put len ((getLe m (base + off) (uintW bits) + 2 ^ 64 - value) % 2 ^ 64) bits).took bits)
        else .ub .outOfBounds
      else .fail errGeneral
    else .fail errBits
  | .uintLh off sz bits, s =>
    if s.rem ≥ bits then
      if bits ≤ 8 then do
        -- written, read back relative to the padding pattern, and written again
        let t ← wrBits m len base off sz 0 1 bits s
        let (x, rd') := masked8 (t.bits len) (t.wi - bits) s.bo bits
        let t := ESt.put len x bits { t with wi := rd' - bits }
        -- in a union `remaining_bits_len` is reduced twice
        .ok (if u then { t.took bits with rem := t.rem - bits - bits } else t.took bits)
      else .fail errGeneral
    else .fail errBits
  | .uintArr off sz bits count, s =>
    if s.rem ≥ bits * count then
      if bits ≤ 8 then do
        let s ← wrArr m len base off sz bits count 0 s
        .ok (s.took (bits * count))
      else .fail 999
    else .fail errBits
  | .typ off _ sub, s =>
    encL m len (base + off) sub {} s
  | .tarr off sz esz count sub, s =>
    iterE (eltE base off sz esz (fun b s => encL m len b sub {} s)) count 0 s
  | .vtarr _ off sz esz cnt sub, s =>
    iterE (eltE base off sz esz (fun b s => encL m len b sub {} s))
      (m (base + cnt) % 256) 0 s
  | .bitmap off sz bits, s =>
    if bits = 0 then .ok s
    else if s.rem < bits then .fail errBits
    else if 64 < bits then .fail 999
    else if u then do
      let s ← wrBits m len base off sz 0 (if bits ≤ 32 then 4 else 8) bits s
      .ok (s.took bits)
    else do
      -- 4 or 8 octets, whatever the number of bits
      let s ← wrArr m len base off sz 8 (if bits ≤ 32 then 4 else 8) 0 s
      .ok (s.took bits)
  | .choice off sz sel subs, s =>
    if u then .fail errScript
    else if sz = 0 then .ub .outOfBounds
    else encC m len base (m (base + off) % 256) sel subs s
  | .serialize off lenBits sub, s =>
    if u then .fail errScript
    else do
      let t : ESt := { s with wi := s.wi + lenBits, bo := s.bo + lenBits, rem := s.rem - lenBits }
      let t ← encL m len (base + off) sub {} t
      let back := ESt.put len (t.wi - s.wi - lenBits) lenBits { t with wi := s.wi }
      .ok { back with wi := t.wi }
  | .varBmp off sz cnt adj, s =>
    if u then .fail errScript
    else
      let n := m (base + cnt) % 256 + adj
      if n = 0 then .ok s
      else if 0 < n % 8 then do
        let t ← wrBits m len base off sz 0 1 (n % 8) s
        let t ← wrArr m len base off sz 8 (n / 8) 1 t
        .ok { t with bo := s.bo + n % 8, rem := s.rem - n }
      else do
        let t ← wrArr m len base off sz 8 (n / 8) 0 s
        .ok { t with rem := s.rem - n }
  | .leftBmp _ off sz cnt adj, s =>
    if u then .fail errScript
    else
      let n := m (base + cnt) % 256 + adj
      if n = 0 then .ok s
      else if s.rem < n then .fail errBits
      else do
        -- all octets begun are written whole, and then the odd bits once more from the next octet
        let t ← wrArr m len base off sz 8 ((n + 7) / 8) 0 s
        if 0 < n % 8 then do
          let t ← wrBits m len base off sz ((n + 7) / 8) 1 (n % 8) t
          .ok { t with bo := s.bo + n % 8, rem := s.rem - n }
        else .ok { t with rem := s.rem - n }
  | .padding, s =>
    if u then .fail errScript
    else if s.rem < 0 then .fail errBits
    else .ok (padE len s.rem.toNat s)
  | .varArr off sz cnt adj, s =>
    if u then .fail errScript
    else
      let n := m (base + cnt) % 256 + adj
      do
        let t ← wrArr m len base off sz 8 n 0 s
        .ok (t.took (8 * n))
  | .recArr off sz cnt bits, s =>
    if u then .fail errScript
    else do
      let s ← recArrE m len base off sz bits (m (base + cnt) % 256) 0 s
      .ok ((s.put len 0 1).took 1)
  | .recTArr off sz esz _ cnt sub, s =>
    if u then .fail errScript
    else do
      let s ← recTArrE len (eltE base off sz esz
        (fun b s => encL m len b sub {} s)) (m (base + cnt) % 256) 0 s
      -- the end tag is not counted in `remaining_bits_len`
      let s := s.put len 0 1
      .ok { s with bo := s.bo + 1 }
  | .recTArr1 off sz esz _ cnt sub, s =>
    if u then .fail errScript
    else do
      let s ← recTArr1E len (eltE base off sz esz
        (fun b s => encL m len b sub {} s)) (m (base + cnt) % 256) 0 s
      .ok ((s.put len 0 1).took 1)
  | .fixed bits value, s =>
    if u then .fail errScript else .ok ((s.put len value bits).took bits)
  | .cbCopy .., _ => .fail 999
  | .cbTddMap .., _ => .fail 999
  | .cbTddCells .., _ => .fail 999
  | .trap code, _ => if u then .fail errScript else .fail code
  | .union .., _ => .fail errScript
  | .exist .., _ => .fail errScript
  | .nextExist .., _ => .fail errScript

/-- `CSN_CHOICE` (`csn1_enc.c:359-408`): the selector of alternative `i` and the alternative. -/
def encC (m : Mem) (len base : Nat) (i : Nat) : List (Nat × Nat) → List Csn → ESt → CRes ESt
  | (bits, value) :: sel, d :: ds, s =>
    if i = 0 then
      let s := (s.put len value bits).took bits
      if s.rem < 0 then .fail errBits
      else do
        let s ← encD m len false base d s
        if s.rem < 0 then .fail errBits else .ok s
    else encC m len base (i - 1) sel ds s
  | _, _, _ => .fail errUnion

/-- The loop over the lines of a table (`csn1_enc.c:57-65`, `450-886`, `1287-1301`). -/
def encL (m : Mem) (len base : Nat) : List Csn → Ctl → ESt → CRes ESt
  | [], c, s => if c.skip = 0 then (if s.rem < 0 then .fail errBits else .ok s) else .ub .outOfBounds
  | d :: ds, c, s =>
    if c.skip ≠ 0 then encL m len base ds { c with skip := c.skip - 1 } s
    else match c.pick with
    | some r => do
      let s ← encD m len true base d s
      if s.rem < 0 then .fail errBits else encL m len base ds { skip := r } s
    | none =>
      if s.rem < 0 then .fail errBits
      else match d with
      | .union lh off sz count =>
        if count = 0 ∨ 16 < count then .fail errUnion
        else do
          -- written, then read back
          let n := ixBits count
          let t ← wrBits m len base off sz 0 1 n s
          let r : CSt := { mem := m, rd := t.wi - n, bo := s.bo, rem := s.rem }
          let (idx, r) := unionIdx (t.bits len) lh n 0 r
          let k := min (idx % 256 + 1) count
          encL m len base ds { skip := k - 1, pick := some (count - k) }
            { vec := t.vec, wi := r.rd, bo := r.bo, rem := r.rem }
      -- `writeIndex--` moves the pointer itself, which is then dereferenced
      | .exist .. => .ub .outOfBounds
      | .nextExist lh off sz n orNull =>
        if orNull && s.rem == 0 then encL m len base ds { skip := n } s
        else if lh then .ub .outOfBounds
        else do
          let s ← wrBits m len base off sz 0 1 1 s
          encL m len base ds { skip := if m (base + off) % 256 = 0 then n else 0 } (s.took 1)
      | d => do
        let s ← encD m len false base d s
        encL m len base ds {} s

end

/-- `GPRS_RLCMAC_DUMMY_VEC` (`rlcmac_enc.h:13`): the vector before encoding holds octets 0x2B. -/
def dummyVec : Nat → Bool := fun i => Nat.testBit 0x2B (7 - i % 8)

/-- Result of the encoding functions: a positive number of bits left is turned into an error
(`csn1_ts_44_060.c:4848-4854`). -/
def encDone (r : CRes ESt) : CRes ESt :=
  match r with
  | .ok s => if s.rem > 0 then .fail errBits else .ok s
  | r => r

/-- `osmo_gprs_rlcmac_encode_uplink` (`csn1_ts_44_060.c:4750-4858`) of the structure at address 0, into
the 23 octets of a control block prepared by the callers.  `.ok`: the function returns 0. -/
def encodeUplink (m : Mem) : CRes ESt :=
  match ulTable (m 0 % 256) with
  | some t => encDone (encL m 184 0 t {} { vec := dummyVec, wi := 0, bo := 0, rem := 184 })
  | none => .fail errGeneral

end Verif.Csn1
