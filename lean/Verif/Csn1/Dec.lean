import Verif.Basic

/-!
# The CSN.1 decoder

`osmo_csn1_stream_decode()` walks a table of descriptors and stores what it reads from a bit vector
into a C structure.  Structures are modelled as what they are in memory: an assignment of a byte to
every address.  Offsets, member sizes and array capacities come with the descriptors, so a store that
does not fit the member the descriptor names is visible as undefined behaviour (`outOfBounds`).

libosmocore's `bitvec_read_field()` is modelled as returning the requested bits most significant first,
zero bits past the end of the vector, and always moving the read index; `bitvec_get_bit_pos()` past the
end returns a negative value.
-/
namespace Verif.Csn1

/-- Outcome of the CSN.1 coder: success, a negative CSN error code (`include/osmocom/csn1/csn1.h:31-41`),
or undefined behaviour. -/
inductive CRes (α : Type) where
  | ok (a : α)
  | fail (code : Int)
  | ub (f : Fault)

namespace CRes

/-- Sequencing: errors and faults stop the computation. -/
def bind {α β : Type} (r : CRes α) (f : α → CRes β) : CRes β :=
  match r with
  | ok a => f a
  | fail c => fail c
  | ub u => ub u

instance : Monad CRes where
  pure := ok
  bind := bind

@[simp] theorem pure_eq {α : Type} (a : α) : (pure a : CRes α) = ok a := rfl
@[simp] theorem bind_ok {α β : Type} (a : α) (f : α → CRes β) : (ok a >>= f) = f a := rfl
@[simp] theorem bind_fail {α β : Type} (e : Int) (f : α → CRes β) : (fail e >>= f) = fail e := rfl
@[simp] theorem bind_ub {α β : Type} (u : Fault) (f : α → CRes β) : (ub u >>= f) = ub u := rfl

/-- The outcome is not undefined behaviour. -/
def Safe {α : Type} (r : CRes α) : Prop := ∀ f, r ≠ ub f

/-- Boolean form of `Safe`. -/
def isUb {α : Type} : CRes α → Bool
  | ub _ => true
  | _ => false

@[simp] theorem safe_ok {α : Type} (a : α) : Safe (ok a) := fun _ h => by cases h
@[simp] theorem safe_fail {α : Type} (e : Int) : Safe (fail e : CRes α) := fun _ h => by cases h
@[simp] theorem not_safe_ub {α : Type} (u : Fault) : ¬ Safe (ub u : CRes α) := fun h => h u rfl

theorem safe_iff_isUb {α : Type} (r : CRes α) : r.Safe ↔ r.isUb = false := by
  cases r <;> simp [isUb]

end CRes

/-- Error codes (`csn1.h:31-41`). -/
abbrev errGeneral : Int := -1
/-- `CSN_ERROR_IN_SCRIPT` -/
abbrev errScript : Int := -3
/-- `CSN_ERROR_INVALID_UNION_INDEX` -/
abbrev errUnion : Int := -4
/-- `CSN_ERROR_NEED_MORE_BITS_TO_UNPACK` -/
abbrev errBits : Int := -5
/-- `CSN_ERROR_STREAM_NOT_SUPPORTED` -/
abbrev errUnsupported : Int := -8

/-- One line of a descriptor table (`CSN_DESCR`, `csn1.h:174-189`, and the `M_…` macros
`csn1.h:236-616`).  `off` is the offset of the member in its structure, `sz` the size in bytes of that
member (all its array elements), `cnt` the offset of the member holding an element count, `esz` the
size of one array element. -/
inductive Csn where
  /-- `M_BIT`, `M_BIT_OR_NULL` -/
  | bit (off sz : Nat) (orNull : Bool)
  /-- `M_NULL` -/
  | null (i : Nat)
  /-- `M_UINT`, `M_UINT_OR_NULL` -/
  | uint (off sz bits : Nat) (orNull : Bool)
  /-- `M_UINT_OFFSET` -/
  | uintOfs (off sz bits value : Nat)
  /-- `M_UINT_LH` -/
  | uintLh (off sz bits : Nat)
  /-- `M_UINT_ARRAY` -/
  | uintArr (off sz bits count : Nat)
  /-- `M_TYPE`, `M_TYPE_OR_NULL` -/
  | typ (off : Nat) (orNull : Bool) (sub : List Csn)
  /-- `M_TYPE_ARRAY` -/
  | tarr (off sz esz count : Nat) (sub : List Csn)
  /-- `M_VAR_TARRAY` and, with `ofs`, `M_VAR_TARRAY_OFFSET` -/
  | vtarr (ofs : Bool) (off sz esz cnt : Nat) (sub : List Csn)
  /-- `M_BITMAP` -/
  | bitmap (off sz bits : Nat)
  /-- `M_CHOICE`: per alternative the number of selector bits and their value, and the descriptor;
  no table uses `keep_bits` -/
  | choice (off sz : Nat) (sel : List (Nat × Nat)) (subs : List Csn)
  /-- `M_SERIALIZE` with `Content_Dissector` or `Additional_access_technologies_Dissector`
  (`csn1_ts_24_008.c:282-317`), which decode the structure `sub` -/
  | serialize (off lenBits : Nat) (sub : List Csn)
  /-- `M_UNION` and, with `lh`, `M_UNION_LH`: the `count` following lines are the alternatives -/
  | union (lh : Bool) (off sz count : Nat)
  /-- `M_THIS_EXIST` and, with `lh`, `M_THIS_EXIST_LH` -/
  | exist (lh : Bool) (off sz : Nat)
  /-- `M_NEXT_EXIST`, `M_NEXT_EXIST_OR_NULL` and, with `lh`, `M_NEXT_EXIST_LH`,
  `M_NEXT_EXIST_OR_NULL_LH`: governs the `n` following lines -/
  | nextExist (lh : Bool) (off sz n : Nat) (orNull : Bool)
  /-- `M_VAR_BITMAP`: length is the count member plus `adj` -/
  | varBmp (off sz cnt adj : Nat)
  /-- `M_LEFT_VAR_BMP` and, with `toEnd`, `M_LEFT_VAR_BMP_1` -/
  | leftBmp (toEnd : Bool) (off sz cnt adj : Nat)
  /-- `M_PADDING_BITS` -/
  | padding
  /-- `M_VAR_ARRAY` -/
  | varArr (off sz cnt adj : Nat)
  /-- `M_REC_ARRAY` -/
  | recArr (off sz cnt bits : Nat)
  /-- `M_REC_TARRAY` -/
  | recTArr (off sz esz cap cnt : Nat) (sub : List Csn)
  /-- `M_REC_TARRAY_1` -/
  | recTArr1 (off sz esz cap cnt : Nat) (sub : List Csn)
  /-- `M_FIXED` -/
  | fixed (bits value : Nat)
  /-- `M_CALLBACK` with one of the `callback_init_…_FREQUENCY_DIFF` functions: copies the byte at `src`
  into 16 array elements `esz` apart, the first at `dst`, the array ending at `lim` -/
  | cbCopy (src dst esz lim : Nat)
  /-- `M_CALLBACK` with `callback_UTRAN_TDD_map_NrOfFrequencies` -/
  | cbTddMap (src dst : Nat)
  /-- `M_CALLBACK` with `callback_UTRAN_TDD_compute_TDD_CELL_INFORMATION`: `src` is the member
  `BitsInCellInfo` -/
  | cbTddCells (src : Nat)
  /-- `CSN_ERROR` -/
  | trap (code : Int)

/-- The `may_be_null` flag of a line (`csn1.h:236-616`). -/
def Csn.mayBeNull : Csn → Bool
  | .bit _ _ b => b
  | .uint _ _ _ b => b
  | .typ _ b _ => b
  | .nextExist _ _ _ _ b => b
  | .padding => true
  | _ => false

/-- Memory: the byte at every address. -/
abbrev Mem := Nat → Nat

/-- Store one byte. -/
def Mem.put (m : Mem) (a b : Nat) : Mem := fun x => if x = a then b % 256 else m x

/-- Store `w` bytes of a value, least significant first. -/
def Mem.putLe (m : Mem) (a : Nat) : Nat → Nat → Mem
  | 0, _ => m
  | w + 1, x => (m.put a x).putLe (a + 1) w (x / 256)

/-- The variables of the decoding loop (`csn1_dec.c:63-75`): the structure decoded into, `*readIndex`,
`bit_offset` and `remaining_bits_len`. -/
structure CSt where
  mem : Mem
  rd : Nat
  bo : Nat
  rem : Int

/-- The byte at an address. -/
def CSt.byte (s : CSt) (a : Nat) : Nat := s.mem a % 256

/-- Bit `i` of the vector; zero past its end. -/
def bitAt (v : List Bool) (i : Nat) : Nat := if v[i]? = some true then 1 else 0

/-- `bitvec_read_field()`: `n` bits from position `i`, most significant first. -/
def bitsVal (v : List Bool) (i : Nat) : Nat → Nat
  | 0 => 0
  | n + 1 => bitAt v i * 2 ^ n + bitsVal v (i + 1) n

/-- `existNextElement()` (`csn1_dec.c:48-58`): is the tag bit the one announcing an element?  Past the
end of the vector it never is. -/
def tagSet (v : List Bool) (i : Nat) : Bool := v[i]? == some true

/-- `get_masked_bits8()` (`csn1.c:37-65`): bits relative to the padding pattern 0x2B, located by
`bit_offset` within the octet.  Result and new read index. -/
def masked8 (v : List Bool) (rd bo n : Nat) : Nat × Nat :=
  let rel := bo % 8
  let p := rd - rel
  if rel + n ≤ 8 then
    let sh := 8 - rel - n
    (((0x2B ^^^ bitsVal v p 8) >>> sh) &&& (2 ^ n - 1), p + 8 - sh)
  else
    let up := rel + n - 8
    let hi := (((0x2B ^^^ bitsVal v p 8) &&& (2 ^ (8 - rel) - 1)) <<< up) % 256
    let lo := (0x2B ^^^ bitsVal v (p + 8) 8) >>> (8 - up)
    (lo ||| hi, p + 16 - (8 - up))

/-- Where stores are allowed: only inside the member they are meant for (`member`, what C requires), or
anywhere in the `n` bytes of the whole object decoded into (`object n`, what keeps the rest of memory
intact). -/
inductive Pol where
  | member
  | object (n : Nat)

/-- Is a store of `w` bytes at byte `k` of the member at `base + off`, `sz` bytes long, allowed? -/
def Pol.store (p : Pol) (base off sz k w : Nat) : Bool :=
  match p with
  | .member => k + w ≤ sz
  | .object n => base + off + k + w ≤ n

/-- Does element `i` of an array of elements of `esz` bytes in `sz` bytes exist?  Under `object` only
its stores are looked at. -/
def Pol.elem (p : Pol) (sz esz i : Nat) : Bool :=
  match p with
  | .member => (i + 1) * esz ≤ sz
  | .object _ => true

/-- Store `w` bytes at byte `k` of the member at `off`, which is `sz` bytes long. -/
def wr (p : Pol) (base off sz k w x : Nat) (s : CSt) : CRes CSt :=
  if p.store base off sz k w then .ok { s with mem := s.mem.putLe (base + off + k) w x }
  else .ub .outOfBounds

/-- Decode array element `i` with `f`, given the address of the element. -/
def elt (p : Pol) (base off sz esz : Nat) (f : Nat → CSt → CRes CSt) (i : Nat) (s : CSt) : CRes CSt :=
  if p.elem sz esz i then f (base + off + i * esz) s else .ub .outOfBounds

/-- Width in bytes of the store for an integer of `bits` bits (`csn1_dec.c:117-139`). -/
def uintW (bits : Nat) : Nat := if bits ≤ 8 then 1 else if bits ≤ 16 then 2 else 4

/-- Consume `n` bits. -/
def CSt.take (s : CSt) (n : Nat) : CSt := { s with rd := s.rd + n, bo := s.bo + n, rem := s.rem - n }

/-- Store the next `n` elements of `bits` bits, `w` bytes each, from byte `k` of the member on
(`csn1_dec.c:258-268`, `713-745`); `bits` bits are read for each. -/
def rdArr (v : List Bool) (p : Pol) (base off sz bits w : Nat) : Nat → Nat → CSt → CRes CSt
  | 0, _, s => .ok s
  | n + 1, k, s => do
    let s ← wr p base off sz k w (bitsVal v s.rd bits) s
    rdArr v p base off sz bits w n (k + w) { s with rd := s.rd + bits }

/-- Run `f` on array elements `i`, `i+1`, …, `n` times. -/
def iter (f : Nat → CSt → CRes CSt) : Nat → Nat → CSt → CRes CSt
  | 0, _, s => .ok s
  | n + 1, i, s => do
    let s ← f i s
    iter f n (i + 1) s

/-- The loop of `CSN_RECURSIVE_ARRAY` (`csn1_dec.c:1204-1224`): elements of `bits` bits stored in
consecutive bytes.  `fuel` is the number of bits from the read index to the end of the vector: when it
is used up the tag is past the end of the vector and the loop stops.  Result: state and count. -/
def recArrLoop (v : List Bool) (p : Pol) (base off sz bits : Nat) : Nat → Nat → CSt → CRes (Nat × CSt)
  | 0, k, s => .ok (k, { s with rd := s.rd + 1 })
  | fuel + 1, k, s =>
    if tagSet v s.rd then do
      let s ← wr p base off sz k 1 (bitsVal v (s.rd + 1) bits) s
      let s : CSt := { s with rd := s.rd + 1 + bits, rem := s.rem - 1 - bits }
      if s.rem < 0 then .fail errBits
      else recArrLoop v p base off sz bits fuel (k + 1) { s with bo := s.bo + 1 + bits }
    else .ok (k, { s with rd := s.rd + 1 })

/-- The loop of `CSN_RECURSIVE_TARRAY` (`csn1_dec.c:1251-1288`); the first argument is the number of
elements the array can still take. -/
def recTArrLoop (v : List Bool) (f : Nat → CSt → CRes CSt) : Nat → Nat → CSt → CRes (Nat × CSt)
  | 0, i, s =>
    if tagSet v s.rd then .fail errUnsupported else .ok (i, { s with rd := s.rd + 1 })
  | n + 1, i, s =>
    if tagSet v s.rd then do
      let s ← f i { s with rd := s.rd + 1, bo := s.bo + 1, rem := s.rem - 1 }
      if s.rem < 0 then .fail errBits else recTArrLoop v f n (i + 1) s
    else .ok (i, { s with rd := s.rd + 1 })

/-- The loop of `CSN_RECURSIVE_TARRAY_1` (`csn1_dec.c:1328-1365`). -/
def recTArr1Loop (v : List Bool) (f : Nat → CSt → CRes CSt) : Nat → Nat → CSt → CRes (Nat × CSt)
  | 0, _, _ => .fail errUnsupported
  | n + 1, i, s => do
    let s ← f i s
    if s.rem < 0 then .fail errBits
    else
      let t : CSt := { s with rd := s.rd + 1, bo := s.bo + 1, rem := s.rem - 1 }
      if tagSet v s.rd then recTArr1Loop v f n (i + 1) t else .ok (i + 1, t)

/-- `NR_OF_TDD_CELLS_map` (`csn1_ts_44_060.c:2331`). -/
def tddMap : List Nat :=
  [0, 9, 17, 25, 32, 39, 46, 53, 59, 65, 71, 77, 83, 89, 95, 101, 106, 111, 116, 121, 126]

/-- The reading loop of `callback_UTRAN_TDD_compute_TDD_CELL_INFORMATION()`
(`csn1_ts_44_060.c:2386-2406`): words of decreasing size until `idx` bits are used up or a word is
zero; `i` indexes the local array `w[64]`.  The first argument bounds the iterations (each uses up at
least one bit while the word size is positive).  Result: the new read index. -/
def tddLoop (v : List Bool) : Nat → Int → Nat → Nat → Nat → Nat → Nat → CRes Nat
  | 0, _, _, _, _, _, cur => .ok cur
  | f + 1, idx, wsize, nwi, jwi, i, cur =>
    if idx > 0 then
      if 64 ≤ i then .ub .outOfBounds
      else
        let x := bitsVal v cur wsize
        let cur := cur + wsize
        let idx := idx - wsize
        if x = 0 then .ok cur
        else if jwi + 1 = nwi then tddLoop v f idx (wsize - 1) (nwi * 2) 0 (i + 1) cur
        else tddLoop v f idx wsize nwi (jwi + 1) (i + 1) cur
    else .ok (cur - idx.natAbs)

/-- What to do with the following lines of a table: skip `skip` of them, then, if `pick = some r`,
treat one as the selected alternative of a union and skip `r` more (the other alternatives). -/
structure Ctl where
  skip : Nat := 0
  pick : Option Nat := none

/-- `ixBitsTab` (`csn1.c:35`). -/
def ixBits (count : Nat) : Nat :=
  if count = 0 then 0 else if count ≤ 2 then 1 else if count ≤ 4 then 2 else if count ≤ 7 then 3
  else if count ≤ 15 then 4 else 5

/-- The selector of a union: `n` bits, relative to the padding pattern when `lh`
(`csn1_dec.c:567-583`). -/
def unionIdx (v : List Bool) (lh : Bool) : Nat → Nat → CSt → Nat × CSt
  | 0, idx, s => (idx, s)
  | n + 1, idx, s =>
    let (b, rd') := if lh then masked8 v s.rd s.bo 1 else (bitsVal v s.rd 1, s.rd + 1)
    unionIdx v lh n (idx * 2 + b) { s with rd := rd', bo := s.bo + 1, rem := s.rem - 1 }

/-- `iter` for the members of a bitmap: `n` whole octets from byte `k` on. -/
abbrev rdOctets (v : List Bool) (p : Pol) (base off sz : Nat) (n k : Nat) (s : CSt) : CRes CSt :=
  rdArr v p base off sz 8 1 n k s

/-- `CSN_LEFT_ALIGNED_VAR_BMP_1` stores the number of bits left in the count member
(`csn1_dec.c:1064-1072`). -/
def storeRest (p : Pol) (base cnt : Nat) (toEnd : Bool) (s : CSt) : CRes CSt :=
  if toEnd then wr p base cnt 1 0 1 (s.rem.toNat % 256) s else .ok s

mutual

/-- One line of a table other than those steering the walk (`csn1_dec.c:84-543`, `1001-1402`); with
`u` as the selected alternative of a union (`csn1_dec.c:594-839`). -/
def decD (v : List Bool) (p : Pol) (u : Bool) (base : Nat) : Csn → CSt → CRes CSt
  | .bit off sz orNull, s =>
    if u || s.rem > 0 then do
      let s ← wr p base off sz 0 1 (bitsVal v s.rd 1) s
      .ok (s.take 1)
    else if orNull then do
      let s ← wr p base off sz 0 1 0 s
      .ok { s with bo := s.bo + 1, rem := s.rem - 1 }
    else .fail errBits
  | .null i, s => .ok { s with bo := s.bo + i }
  | .uint off sz bits orNull, s =>
    if s.rem ≥ bits then
      if bits ≤ 32 then do
        let s ← wr p base off sz 0 (uintW bits) (bitsVal v s.rd bits) s
        .ok (s.take bits)
      else .fail errGeneral
    else if u then .fail errGeneral
    else if orNull then
      if bits ≤ 32 then wr p base off sz 0 (uintW bits) 0 s else .ok s
    else .fail errBits
  | .uintOfs off sz bits value, s =>
    if s.rem ≥ bits then
      if bits ≤ 32 then do
        let s ← wr p base off sz 0 (uintW bits) (bitsVal v s.rd bits + value) s
        .ok (s.take bits)
      else .fail errGeneral
    else .fail errBits
  | .uintLh off sz bits, s =>
    if s.rem ≥ bits then
      if bits ≤ 8 then do
        let (x, rd') := masked8 v s.rd s.bo bits
        let s ← wr p base off sz 0 1 x s
        .ok { s with rd := rd', bo := s.bo + bits, rem := s.rem - bits }
      else .fail errGeneral
    else .fail errBits
  | .uintArr off sz bits count, s =>
    -- the tables only use elements of at most 8 bits and a positive count
    if s.rem ≥ bits * count then do
      let s ← rdArr v p base off sz bits (if bits ≤ 8 then 1 else 2) count 0 s
      .ok { s with bo := s.bo + bits * count, rem := s.rem - bits * count }
    else .fail errBits
  | .typ off orNull sub, s =>
    if orNull && s.rem == 0 then .ok s
    else decL v p (base + off) sub {} s
  | .tarr off sz esz count sub, s =>
    iter (elt p base off sz esz (fun b s => decL v p b sub {} s)) count 0 s
  | .vtarr ofs off sz esz cnt sub, s =>
    -- in a union the count is taken one less with `ofs`, and an element count of 0 wraps round
    let n := s.byte (base + cnt)
    let n := if u && ofs then (n + 65535) % 65536 else n
    iter (elt p base off sz esz (fun b s => decL v p b sub {} s)) n 0 s
  | .bitmap off sz bits, s =>
    if bits = 0 then .ok s
    else if s.rem < bits then .fail errBits
    else if 64 < bits then .ok s
    else if u then do
      -- one integer of 4 or 8 bytes
      let s ← wr p base off sz 0 (if bits ≤ 32 then 4 else 8) (bitsVal v s.rd bits) s
      .ok (s.take bits)
    else do
      -- 4 or 8 octets, whatever the number of bits
      let s ← rdOctets v p base off sz (if bits ≤ 32 then 4 else 8) 0 s
      .ok { s with bo := s.bo + bits, rem := s.rem - bits }
  | .choice off sz sel subs, s =>
    if u then .fail errScript else decC v p base off sz 0 sel subs s
  | .serialize off lenBits sub, s =>
    if u then .fail errScript
    else
      let len := bitsVal v s.rd lenBits % 256
      let s := s.take lenBits
      if 0 < len then do
        let t ← decL v p (base + off) sub {} { s with rem := len }
        .ok { mem := t.mem, rd := t.rd + t.rem.toNat, bo := s.bo + len, rem := s.rem - len }
      else do
        let t ← decL v p (base + off) sub {} s
        .ok { t with rd := t.rd + t.rem.toNat }
  | .varBmp off sz cnt adj, s =>
    if u then .fail errScript
    else
      let n := s.byte (base + cnt) + adj
      if n = 0 then .ok s
      else if s.rem < n then .fail errBits
      else if 0 < n % 8 then do
        let t ← wr p base off sz 0 1 (bitsVal v s.rd (n % 8)) s
        let t ← rdOctets v p base off sz (n / 8) 1 { t with rd := t.rd + n % 8 }
        .ok { t with bo := s.bo + n % 8, rem := s.rem - n }
      else do
        let t ← rdOctets v p base off sz (n / 8) 0 s
        .ok { t with rem := s.rem - n }
  | .leftBmp toEnd off sz cnt adj, s =>
    if u then .fail errScript
    else do
      let s ← storeRest p base cnt toEnd s
      let n := s.byte (base + cnt) + adj
      if n = 0 then .ok s
      else if s.rem < n then .fail errBits
      else do
        let t ← rdOctets v p base off sz (n / 8) 0 s
        if 0 < n % 8 then do
          let t ← wr p base off sz (n / 8) 1 (bitsVal v t.rd (n % 8)) t
          .ok { t with rd := t.rd + n % 8, bo := s.bo + n % 8, rem := s.rem - n }
        else .ok { t with rem := s.rem - n }
  | .padding, s =>
    if u then .fail errScript
    else if s.rem < 0 then .fail errBits
    else .ok { s with bo := s.bo + s.rem.toNat, rem := 0 }
  | .varArr off sz cnt adj, s =>
    if u then .fail errScript
    else
      let n := s.byte (base + cnt) + adj
      if n = 0 then .ok s
      else if s.rem < 8 * n then .fail errBits
      else do
        let t ← rdOctets v p base off sz n 0 s
        .ok { t with bo := s.bo + 8 * n, rem := s.rem - 8 * n }
  | .recArr off sz cnt bits, s =>
    if u then .fail errScript
    else do
      let (n, s) ← recArrLoop v p base off sz bits (v.length - s.rd) 0 s
      let s ← wr p base cnt 1 0 1 n s
      .ok { s with bo := s.bo + 1, rem := s.rem - 1 }
  | .recTArr off sz esz cap cnt sub, s =>
    if u then .fail errScript
    else do
      let (n, s) ← recTArrLoop v (elt p base off sz esz (fun b s => decL v p b sub {} s)) cap 0 s
      let s ← wr p base cnt 1 0 1 n s
      .ok { s with bo := s.bo + 1, rem := s.rem - 1 }
  | .recTArr1 off sz esz cap cnt sub, s =>
    if u then .fail errScript
    else do
      let (n, s) ← recTArr1Loop v (elt p base off sz esz (fun b s => decL v p b sub {} s)) cap 0 s
      wr p base cnt 1 0 1 n s
  | .fixed bits value, s =>
    if u then .fail errScript
    else if bitsVal v s.rd bits ≠ value then .fail errGeneral
    else .ok (s.take bits)
  | .cbCopy src dst esz lim, s =>
    if u then .fail errScript
    else iter (fun i t => wr p base dst (lim - dst) (i * esz) 1 (s.byte (base + src)) t) 16 0 s
  | .cbTddMap src dst, s =>
    if u then .fail errScript
    else wr p base dst 1 0 1 (tddMap.getD (s.byte (base + src)) 0) s
  | .cbTddCells src, s =>
    if u then .fail errScript
    else do
      let cur ← tddLoop v 256 (s.byte (base + src)) 10 1 0 1 s.rd
      .ok { s with rd := cur, bo := s.bo + (cur - s.rd), rem := s.rem - (cur - s.rd : Nat) }
  | .trap code, _ => if u then .fail errScript else .fail code
  -- steering lines: handled by `decL`; as the alternative of a union they are an error in the table
  | .union .., _ => .fail errScript
  | .exist .., _ => .fail errScript
  | .nextExist .., _ => .fail errScript

/-- `CSN_CHOICE` (`csn1_dec.c:408-466`): the first alternative whose selector matches is stored and
decoded; the index of the alternative is `i`. -/
def decC (v : List Bool) (p : Pol) (base off sz : Nat) (i : Nat) : List (Nat × Nat) → List Csn → CSt → CRes CSt
  | (bits, value) :: sel, d :: ds, s =>
    if bitsVal v s.rd bits = value then do
      let s ← wr p base off sz 0 1 i s
      let s := s.take bits
      if s.rem < 0 then .fail errBits
      else do
        let s ← decD v p false base d s
        if s.rem < 0 then .fail errBits else .ok s
    else decC v p base off sz (i + 1) sel ds s
  | _, _, _ => .fail errUnsupported

/-- The loop over the lines of a table (`csn1_dec.c:60-83`, `548-988`, `1404-1424`).  The end of the
table ends the decoding. -/
def decL (v : List Bool) (p : Pol) (base : Nat) : List Csn → Ctl → CSt → CRes CSt
  | [], c, s => if c.skip = 0 then (if s.rem < 0 then .fail errBits else .ok s) else .ub .outOfBounds
  | d :: ds, c, s =>
    if c.skip ≠ 0 then decL v p base ds { c with skip := c.skip - 1 } s
    else match c.pick with
    | some r => do
      let s ← decD v p true base d s
      if s.rem < 0 then .fail errBits else decL v p base ds { skip := r } s
    | none =>
      if s.rem < 0 then .fail errBits
      else match d with
      | .union lh off sz count =>
        if count = 0 ∨ 16 < count then .fail errUnion
        else do
          let (idx, s) := unionIdx v lh (ixBits count) 0 s
          let s ← wr p base off sz 0 1 idx s
          let k := min (idx + 1) count
          decL v p base ds { skip := k - 1, pick := some (count - k) } s
      | .exist lh off sz => do
        let (x, rd') := if lh then masked8 v s.rd s.bo 1 else (bitsVal v s.rd 1, s.rd + 1)
        let s ← wr p base off sz 0 1 x s
        let s : CSt := { s with rd := rd', bo := s.bo + 1, rem := s.rem - 1 }
        -- an absent structure ends the table; the number of bits left is the result
        if x = 0 then (if s.rem < 0 then .fail s.rem else .ok s)
        else decL v p base ds {} s
      | .nextExist lh off sz n orNull =>
        if orNull && s.rem == 0 then do
          let s ← wr p base off sz 0 1 0 s
          decL v p base ds { skip := n } s
        else do
          let (x, rd') := if lh then masked8 v s.rd s.bo 1 else (bitsVal v s.rd 1, s.rd + 1)
          -- `1` as the very last bit before lines that may all be null counts as absent
          let absent := x == 0 || (s.rem == 1 && (ds.take n).all Csn.mayBeNull)
          let s ← wr p base off sz 0 1 (if absent then 0 else 1) s
          let s : CSt := { s with rd := rd', bo := s.bo + 1, rem := s.rem - 1 }
          decL v p base ds { skip := if absent then n else 0 } s
      | d => do
        let s ← decD v p false base d s
        decL v p base ds {} s

end

end Verif.Csn1
