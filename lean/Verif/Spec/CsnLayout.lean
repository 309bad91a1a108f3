import Verif.Csn1.Enc

/-!
# What a message consists of

A structure described by a CSN.1 table stands for a sequence of bit fields: `layL` walks the table and
lists them.  This says what the bits of a message are, without saying how to write or read them.

The layout exists (`some`) only if the description is meaningful: every field fits its member, every
count was sent before the elements it counts, arrays are not longer than their members, alternatives can
be told apart.
-/
namespace Verif.Spec

open Csn1

/-- One part of a message. -/
inductive Item where
  /-- The member of `w` octets at `addr`, less `ofs`, sent as `bits` bits. -/
  | fld (addr w bits ofs : Nat)
  /-- `bits` bits with this value, standing for no member. -/
  | con (bits value : Nat)
  /-- The zero bit that ends a list of structures. -/
  | stop
  /-- The octet member at `addr` is known to be `value` without being sent. -/
  | implied (addr value : Nat)

/-- The `n` low bits of a number, most significant first. -/
def natBits : Nat → Nat → List Bool
  | 0, _ => []
  | n + 1, x => x.testBit n :: natBits n x

/-- Number of bits of a part. -/
def Item.size : Item → Nat
  | .fld _ _ bits _ => bits
  | .con bits _ => bits
  | .stop => 1
  | .implied .. => 0

/-- The bits of a part, for a structure in memory `m`. -/
def Item.code (m : Mem) : Item → List Bool
  | .fld addr w bits ofs => natBits bits (getLe m addr w - ofs)
  | .con bits value => natBits bits value
  | .stop => [false]
  | .implied .. => []

/-- The value is in the range the number of bits can express. -/
def Item.Fits (m : Mem) : Item → Prop
  | .fld addr w bits ofs => ofs ≤ getLe m addr w ∧ getLe m addr w - ofs < 2 ^ bits
  | .con bits value => value < 2 ^ bits
  | .stop => True
  | .implied addr value => m addr % 256 = value

instance (m : Mem) (i : Item) : Decidable (i.Fits m) := by
  cases i <;> unfold Item.Fits <;> infer_instance

/-- Does the part belong to the octet at address `a`? -/
def Item.covers (a : Nat) : Item → Bool
  | .fld addr w _ _ => addr ≤ a && a < addr + w
  | .con .. => false
  | .stop => false
  | .implied addr _ => a == addr

/-- Number of bits of a message. -/
def size (l : List Item) : Nat := (l.map Item.size).sum

/-- The bits of a message. -/
def code (m : Mem) (l : List Item) : List Bool := l.flatMap (Item.code m)

/-- Is the octet at address `a` part of the message? -/
def carried (l : List Item) (a : Nat) : Bool := l.any (Item.covers a)

/-- `n` octets from address `a` on, `bits` bits of each. -/
def octets (bits : Nat) : Nat → Nat → List Item
  | _, 0 => []
  | a, n + 1 => .fld a 1 bits 0 :: octets bits (a + 1) n

/-- `n` octets from address `a` on, `bits` bits of each, a one bit before each. -/
def taggedOctets (bits : Nat) : Nat → Nat → List Item
  | _, 0 => []
  | a, n + 1 => .con 1 1 :: .fld a 1 bits 0 :: taggedOctets bits (a + 1) n

/-- Array elements `i`, `i+1`, …, `n` of them. -/
def layIter (f : Nat → List Item → Option (List Item)) : Nat → Nat → List Item → Option (List Item)
  | 0, _, acc => some acc
  | n + 1, i, acc => (f i acc).bind (layIter f n (i + 1))

/-- Two selectors of a choice: number of bits and value.  Neither is the beginning of the other. -/
def apart (a b : Nat × Nat) : Bool :=
  a.2 / 2 ^ (a.1 - min a.1 b.1) != b.2 / 2 ^ (b.1 - min a.1 b.1)

mutual

/-- The parts one line of a table adds to `acc`; `u`: as alternative of a union. -/
def layD (m : Mem) (u : Bool) (base : Nat) : Csn → List Item → Option (List Item)
  | .bit off sz _, acc => if 1 ≤ sz then some (acc ++ [.fld (base + off) 1 1 0]) else none
  | .null _, acc => some acc
  | .uint off sz bits _, acc =>
    if uintW bits ≤ sz ∧ bits ≤ 32 then some (acc ++ [.fld (base + off) (uintW bits) bits 0]) else none
  | .uintOfs off sz bits value, acc =>
    if uintW bits ≤ sz ∧ bits ≤ 32 then some (acc ++ [.fld (base + off) (uintW bits) bits value]) else none
  | .uintArr off sz bits count, acc =>
    if bits ≤ 8 ∧ count ≤ sz then some (acc ++ octets bits (base + off) count) else none
  | .typ off orNull sub, acc =>
    (layL m (base + off) sub {} acc).bind fun r => if orNull ∧ size r = size acc then none else some r
  | .tarr off sz esz count sub, acc =>
    if count * esz ≤ sz then layIter (fun i acc => layL m (base + off + i * esz) sub {} acc) count 0 acc
    else none
  | .vtarr ofs off sz esz cnt sub, acc =>
    let n := m (base + cnt) % 256
    if (u && ofs) = false ∧ carried acc (base + cnt) ∧ n * esz ≤ sz then
      layIter (fun i acc => layL m (base + off + i * esz) sub {} acc) n 0 acc
    else none
  | .bitmap off sz bits, acc =>
    if u then none
    else if bits = 32 ∧ 4 ≤ sz then some (acc ++ octets 8 (base + off) 4)
    else if bits = 64 ∧ 8 ≤ sz then some (acc ++ octets 8 (base + off) 8)
    else none
  | .choice off sz sel subs, acc =>
    if u ∨ sz = 0 then none else layC m base off (m (base + off) % 256) sel subs acc
  | .serialize off lenBits sub, acc =>
    -- preceded by its length in bits
    if u ∨ 8 < lenBits then none
    else (layL m (base + off) sub {} []).bind fun r =>
      if 0 < size r then some (acc ++ .con lenBits (size r) :: r) else none
  | .varBmp off sz cnt adj, acc =>
    let n := m (base + cnt) % 256 + adj
    if u = false ∧ carried acc (base + cnt) ∧ (n + 7) / 8 ≤ sz then
      if 0 < n % 8 then some (acc ++ .fld (base + off) 1 (n % 8) 0 :: octets 8 (base + off + 1) (n / 8))
      else some (acc ++ octets 8 (base + off) (n / 8))
    else none
  | .leftBmp toEnd off sz cnt adj, acc =>
    let n := m (base + cnt) % 256 + adj
    if u = false ∧ toEnd = false ∧ carried acc (base + cnt) ∧ n % 8 = 0 ∧ n / 8 ≤ sz then
      some (acc ++ octets 8 (base + off) (n / 8))
    else none
  | .varArr off sz cnt adj, acc =>
    let n := m (base + cnt) % 256 + adj
    if u = false ∧ carried acc (base + cnt) ∧ n ≤ sz then some (acc ++ octets 8 (base + off) n) else none
  | .recArr off sz cnt bits, acc =>
    let n := m (base + cnt) % 256
    if u = false ∧ n ≤ sz then
      some (acc ++ taggedOctets bits (base + off) n ++ [.con 1 0, .implied (base + cnt) n])
    else none
  | .recTArr off sz esz cap cnt sub, acc =>
    let n := m (base + cnt) % 256
    if u = false ∧ n ≤ cap ∧ n * esz ≤ sz then
      (layIter (fun i acc => layL m (base + off + i * esz) sub {} (acc ++ [.con 1 1])) n 0 acc).bind fun r =>
        some (r ++ [.stop, .implied (base + cnt) n])
    else none
  | .recTArr1 off sz esz cap cnt sub, acc =>
    let n := m (base + cnt) % 256
    if u = false ∧ 0 < n ∧ n ≤ cap ∧ n * esz ≤ sz then
      (layIter (fun i acc => layL m (base + off + i * esz) sub {}
        (if i = 0 then acc else acc ++ [.con 1 1])) n 0 acc).bind fun r =>
        some (r ++ [.con 1 0, .implied (base + cnt) n])
    else none
  | .fixed bits value, acc => if u then none else some (acc ++ [.con bits value])
  | _, _ => none

/-- The alternative `i` of a choice whose index is the octet at `base + off`. -/
def layC (m : Mem) (base off : Nat) (i : Nat) : List (Nat × Nat) → List Csn → List Item → Option (List Item)
  | b :: sel, d :: ds, acc =>
    if i = 0 then
      layD m false base d (acc ++ [.con b.1 b.2, .implied (base + off) (m (base + off) % 256)])
    else
      -- the selector of the alternative chosen cannot be mistaken for this one
      match sel[i - 1]? with
      | some b' => if apart b b' then layC m base off (i - 1) sel ds acc else none
      | none => none
  | _, _, _ => none

/-- The parts the lines of a table add to `acc`. -/
def layL (m : Mem) (base : Nat) : List Csn → Ctl → List Item → Option (List Item)
  | [], c, acc => if c.skip = 0 ∧ c.pick = none then some acc else none
  | d :: ds, c, acc =>
    if c.skip ≠ 0 then layL m base ds { c with skip := c.skip - 1 } acc
    else match c.pick with
    | some r => (layD m true base d acc).bind (layL m base ds { skip := r })
    | none => match d with
      | .union lh off sz count =>
        if lh = false ∧ 0 < count ∧ count ≤ 16 ∧ 0 < sz then
          let k := min (m (base + off) % 256 + 1) count
          layL m base ds { skip := k - 1, pick := some (count - k) }
            (acc ++ [.fld (base + off) 1 (ixBits count) 0])
        else none
      | .nextExist lh off sz n _ =>
        if lh = false ∧ 0 < sz ∧ n ≤ ds.length then
          let there := m (base + off) % 256 ≠ 0
          let acc' := acc ++ [.fld (base + off) 1 1 0]
          (layL m base ds { skip := if there then 0 else n } acc').bind fun r =>
            -- a flag announces something
            if there ∧ (ds.take n).all Csn.mayBeNull ∧ size r = size acc' then none else some r
        else none
      | .exist .. => none
      | d => (layD m false base d acc).bind (layL m base ds {})

end

end Verif.Spec
