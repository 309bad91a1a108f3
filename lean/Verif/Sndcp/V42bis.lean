import Verif.Basic

/-!
# V.42bis data compression, /repo/src/sndcp/v42bis.c and /repo/src/sndcp/sndcp_dcomp.c

Out-of-range accesses, undefined shifts and endless loops are distinct outcomes.
-/
namespace Verif.V42

/-- What can go wrong: an access outside an array or the output buffer, an undefined shift, an endless loop, a missing
state. -/
inductive VFault where
  | bounds | shift | hang | null
  deriving DecidableEq, Repr

/-- Outcome of a function: a value, the return value -1, or undefined behaviour. -/
inductive VRes (α : Type) where
  | ok (a : α)
  | fail
  | ub (f : VFault)
  deriving DecidableEq, Repr

/-- Sequencing. -/
def VRes.bind {α β : Type} (r : VRes α) (f : α → VRes β) : VRes β :=
  match r with
  | .ok a => f a
  | .fail => .fail
  | .ub u => .ub u

instance : Monad VRes where
  pure := .ok
  bind := VRes.bind

/-- `v42bis_dict_node_t`, /repo/include/osmocom/gprs/sndcp/v42bis_private.h:30-39. -/
structure Node where
  octet : UInt8
  parent : Nat
  child : Nat
  next : Nat
  deriving DecidableEq, Repr

/-- `dict`: `V42BIS_MAX_CODEWORDS` entries, /repo/include/osmocom/gprs/sndcp/v42bis_private.h:76; the index is checked
where it is used. -/
structure Dict where
  get : Nat → Node

instance : CoeFun Dict fun _ => Nat → Node := ⟨Dict.get⟩

/-- One entry is replaced. -/
def Dict.set (D : Dict) (i : Nat) (n : Node) : Dict := ⟨fun j => if j = i then n else D j⟩

/-- `v42bis_comp_state_t`, /repo/include/osmocom/gprs/sndcp/v42bis_private.h:45-103.  `str` are the first `string_length`
octets of `string`; `buf` the first `output_octet_count` of `output_buf`; `out` what the handler was given so far.
`compression_mode` is left out: it is `V42BIS_COMPRESSION_MODE_DYNAMIC` in all states that `v42bis_init` leaves, and
nothing in the library changes it. -/
structure Vs where
  n2 : Nat
  n7 : Nat
  maxOut : Nat
  transparent : Bool
  c1 : Nat
  c2 : Nat
  c3 : Nat
  updateAt : Nat
  lastMatched : Nat
  lastAdded : Nat
  dict : Dict
  str : List UInt8
  flushed : Nat
  perf : Nat
  bitBuf : Nat
  bitCount : Nat
  buf : List UInt8
  out : List UInt8
  esc : UInt8
  escaped : Bool

/-- `dictionary_init` on the dictionary, /repo/src/sndcp/v42bis.c:161-163. -/
def Dict.init : Dict := ⟨fun i => ⟨if 3 ≤ i ∧ i < 259 then UInt8.ofNat (i - 3) else 0, 0, 0, 0⟩⟩

/-- `dictionary_init`, /repo/src/sndcp/v42bis.c:157-178. -/
def Vs.initDict (s : Vs) : Vs :=
  { s with dict := Dict.init, c1 := 259, c2 := 9, c3 := 512, lastMatched := 0, updateAt := 0, lastAdded := 0, bitBuf := 0,
           bitCount := 0, flushed := 0, str := [], esc := 0, transparent := true, escaped := false, perf := 2048 }

/-- `v42bis_comp_init`, /repo/src/sndcp/v42bis.c:400-416, with `max_output_len` 1024 (`V42BIS_MAX_OUTPUT_LENGTH`), as
/repo/src/sndcp/sndcp_dcomp.c:139-141 has it. -/
def Vs.init (p1 p2 : Nat) : Vs :=
  Vs.initDict ⟨p1, p2, 1024, true, 0, 0, 0, 0, 0, 0, Dict.init, [], 0, 0, 0, 0, [], [], 0, false⟩

/-! ## Output -/

/-- `push_octet`, /repo/src/sndcp/v42bis.c:85-93. -/
def Vs.pushOctet (s : Vs) (o : UInt8) : Vs :=
  if s.maxOut ≤ s.buf.length + 1 then { s with buf := [], out := s.out ++ (s.buf ++ [o]) }
  else { s with buf := s.buf ++ [o] }

/-- The loop of `push_octets`, /repo/src/sndcp/v42bis.c:101-115: whole buffers are handed out.  (It ends: `fuel` is the
number of octets and one more, and each round but the first takes `maxOut` of them.) -/
def pushLoop : Nat → Vs → List UInt8 → Vs
  | 0, s, l => { s with buf := s.buf ++ l }
  | n + 1, s, l =>
    if s.maxOut ≤ s.buf.length + l.length then
      pushLoop n { s with buf := [], out := s.out ++ (s.buf ++ l.take (s.maxOut - s.buf.length)) }
        (l.drop (s.maxOut - s.buf.length))
    else { s with buf := s.buf ++ l }

/-- `push_octets`, /repo/src/sndcp/v42bis.c:96-116. -/
def Vs.pushOctets (s : Vs) (l : List UInt8) : Vs := pushLoop (l.length + 1) s l

/-- `while (s->bit_count >= 8)`, /repo/src/sndcp/v42bis.c:123-128 and 137-142. -/
def emit : Nat → Vs → Vs
  | 0, s => s
  | n + 1, s =>
    if 8 ≤ s.bitCount then
      emit n { (s.pushOctet (UInt8.ofNat (s.bitBuf % 256))) with bitBuf := s.bitBuf >>> 8, bitCount := s.bitCount - 8 }
    else s

/-- `push_compressed_code`, /repo/src/sndcp/v42bis.c:119-129; `bit_buffer` has 32 bits. -/
def Vs.pushCode (s : Vs) (code : Nat) : Vs :=
  emit (s.bitCount + s.c2) { s with bitBuf := s.bitBuf ||| (code <<< s.bitCount) % 4294967296, bitCount := s.bitCount + s.c2 }

/-- `push_octet_alignment`, /repo/src/sndcp/v42bis.c:132-144. -/
def Vs.align (s : Vs) : Vs :=
  if s.bitCount % 8 ≠ 0 then emit (s.bitCount + 8) { s with bitCount := s.bitCount + (8 - s.bitCount % 8) } else s

/-- `flush_octets`, /repo/src/sndcp/v42bis.c:147-154. -/
def Vs.flushOctets (s : Vs) : Vs := { s with buf := [], out := s.out ++ s.buf }

/-! ## Dictionary -/

/-- The loop of `match_octet`, /repo/src/sndcp/v42bis.c:187-194.  A list longer than the dictionary does not end. -/
def matchWalk (D : Dict) (o : UInt8) : Nat → Nat → VRes Nat
  | 0, _ => .ub .hang
  | n + 1, e =>
    if e = 0 then .ok 0
    else if 4096 ≤ e then .ub .bounds
    else if (D e).octet = o then .ok e
    else matchWalk D o n (D e).next

/-- `match_octet`, /repo/src/sndcp/v42bis.c:181-195. -/
def matchOctet (D : Dict) (p : Nat) (o : UInt8) : VRes Nat :=
  if p = 0 then .ok (o.toNat + 3)
  else if 4096 ≤ p then .ub .bounds
  else matchWalk D o 4097 (D p).child

/-- The search for an entry to use next, /repo/src/sndcp/v42bis.c:212-218. -/
def findFree (D : Dict) (n2 : Nat) : Nat → Nat → VRes Nat
  | 0, _ => .ub .hang
  | n + 1, x =>
    if 4096 ≤ (if x + 1 = n2 then 259 else x + 1) then .ub .bounds
    else if (D (if x + 1 = n2 then 259 else x + 1)).child = 0 then .ok (if x + 1 = n2 then 259 else x + 1)
    else findFree D n2 n (if x + 1 = n2 then 259 else x + 1)

/-- `while (s->dict[e].next != next) e = s->dict[e].next;`, /repo/src/sndcp/v42bis.c:231-232. -/
def findPrev (D : Dict) (x : Nat) : Nat → Nat → VRes Nat
  | 0, _ => .ub .hang
  | n + 1, e => if 4096 ≤ e then .ub .bounds else if (D e).next = x then .ok e else findPrev D x n (D e).next

/-- A leaf is taken from its parent, /repo/src/sndcp/v42bis.c:220-235. -/
def detach (D : Dict) (x : Nat) : VRes Dict :=
  if (D x).parent = 0 then .ok D
  else if 4096 ≤ (D x).parent then .ub .bounds
  else if (D (D x).parent).child = x then .ok (D.set (D x).parent { D (D x).parent with child := (D x).next })
  else
    match findPrev D x 4097 (D (D x).parent).child with
    | .ok e => .ok (D.set e { D e with next := (D x).next })
    | .fail => .fail
    | .ub f => .ub f

/-- The new entry, /repo/src/sndcp/v42bis.c:205-209. -/
def link (D : Dict) (x p : Nat) (o : UInt8) : Dict :=
  (D.set x ⟨o, p, 0, (D p).child⟩).set p { (D.set x ⟨o, p, 0, (D p).child⟩) p with child := x }

/-- `add_octet_to_dictionary`, /repo/src/sndcp/v42bis.c:198-238.  `next` is a `uint16_t` and `n2` at most 65535, so it
never wraps. -/
def Vs.addOctet (s : Vs) (p : Nat) (o : UInt8) : VRes (Vs × Nat) :=
  if 4096 ≤ s.c1 ∨ 4096 ≤ p then .ub .bounds
  else do
    let x ← findFree (link s.dict s.c1 p o) s.n2 65536 s.c1
    let D ← detach (link s.dict s.c1 p o) x
    .ok ({ s with dict := D, c1 := x }, s.c1)

/-! ## Compression -/

/-- `send_string`, /repo/src/sndcp/v42bis.c:241-246. -/
def Vs.sendString (s : Vs) : Vs := { (s.pushOctets s.str) with str := [], flushed := 0 }

/-- The escape code after these octets, /repo/src/sndcp/v42bis.c:289-294 and 677-681. -/
def escAfter (e : UInt8) : List UInt8 → UInt8
  | [] => e
  | o :: l => escAfter (if o = e then e + 51 else e) l

/-- The transparent branch of `send_encoded_data`, /repo/src/sndcp/v42bis.c:277-285. -/
def sendPlain : Vs → List UInt8 → Vs
  | s, [] => s
  | s, o :: l =>
    sendPlain (if o = s.esc then { ((s.pushOctet o).pushOctet 1) with esc := s.esc + 51 } else s.pushOctet o) l

/-- `while (code >= s->v42bis_parm_c3)`, /repo/src/sndcp/v42bis.c:296-306; `c3` is a `uint16_t`. -/
def stepUp : Nat → Vs → Nat → VRes Vs
  | 0, _, _ => .ub .hang
  | n + 1, s, code =>
    if s.c3 ≤ code then
      stepUp n { s.pushCode 2 with c2 := s.c2 + 1, c3 := s.c3 * 2 % 65536 } code
    else .ok s

/-- The compressibility metric (`uint16_t`), /repo/src/sndcp/v42bis.c:274. -/
def perfAfter (perf c2 len : Nat) : Nat := (perf + c2 + 65536 - perf * len * 8 / 2048) % 65536

/-- `send_encoded_data`, /repo/src/sndcp/v42bis.c:268-312. -/
def Vs.sendData (s : Vs) (code : Nat) : VRes Vs :=
  if s.transparent then
    .ok { (sendPlain { s with perf := perfAfter s.perf s.c2 s.str.length } s.str) with str := [], flushed := 0 }
  else do
    let t ← stepUp 64 { s with perf := perfAfter s.perf s.c2 s.str.length, esc := escAfter s.esc s.str } code
    .ok { t.pushCode code with str := [], flushed := 0 }

/-- The pending string is sent before the mode changes, /repo/src/sndcp/v42bis.c:325-330 and 348-353. -/
def Vs.sendPending (s : Vs) : VRes Vs :=
  if s.lastMatched ≠ 0 then do
    let t ← { s with updateAt := s.lastMatched }.sendData s.lastMatched
    .ok { t with lastMatched := 0 }
  else .ok s

/-- `go_compressed`, /repo/src/sndcp/v42bis.c:315-335. -/
def Vs.goCompressed (s : Vs) : VRes Vs := do
  let t ← s.sendPending
  .ok { ((t.pushOctet t.esc).pushOctet 0) with bitBuf := 0, transparent := false }

/-- `go_transparent`, /repo/src/sndcp/v42bis.c:338-358. -/
def Vs.goTransparent (s : Vs) : VRes Vs := do
  let t ← s.sendPending
  .ok { (({ t with lastAdded := 0 }.pushCode 0).align) with transparent := true }

/-- `monitor_for_mode_change`, dynamic mode, /repo/src/sndcp/v42bis.c:361-387. -/
def Vs.monitor (s : Vs) : VRes Vs :=
  if s.transparent then if s.perf < 2048 - 11 then s.goCompressed else .ok s
  else if 2048 < s.perf then s.goTransparent
  else .ok s

/-- "6.4 Add the string to the dictionary", /repo/src/sndcp/v42bis.c:441-447 and 580-585. -/
def Vs.update (s : Vs) (o : UInt8) : VRes Vs :=
  if s.updateAt ≠ 0 then do
    let e ← matchOctet s.dict s.updateAt o
    if e = 0 then do
      let (t, x) ← s.addOctet s.updateAt o
      .ok { t with lastAdded := x, updateAt := 0 }
    else .ok { s with updateAt := 0 }
  else .ok s

/-- "Match string", /repo/src/sndcp/v42bis.c:448-479. -/
def walk : Vs → List UInt8 → VRes (Vs × List UInt8)
  | s, [] => .ok (s, [])
  | s, o :: l => do
    let code ← matchOctet s.dict s.lastMatched o
    if code = 0 then do
      let t ← { s with updateAt := s.lastMatched }.sendData s.lastMatched
      .ok ({ t with lastMatched := 0 }, o :: l)
    else if code = s.lastAdded then do
      let t ← { s with lastAdded := 0 }.sendData s.lastMatched
      .ok ({ t with lastMatched := 0 }, o :: l)
    else if 250 ≤ s.str.length then .ub .bounds
    else if s.str.length + 1 + s.flushed = s.n7 then do
      let t ← { s with lastMatched := code, str := s.str ++ [o] }.sendData code
      .ok ({ t with lastMatched := 0 }, l)
    else walk { s with lastMatched := code, str := s.str ++ [o] } l

/-- The loop of `v42bis_compress`, /repo/src/sndcp/v42bis.c:439-481.  Each round that does not empty `last_matched` takes
an octet. -/
def compLoop : Nat → Vs → List UInt8 → VRes Vs
  | _, s, [] => .ok s
  | 0, _, _ :: _ => .ub .hang
  | n + 1, s, o :: l => do
    let s ← s.update o
    let (s, l) ← walk s (o :: l)
    let s ← s.monitor
    compLoop n s l

/-- `v42bis_compress` with compression on, /repo/src/sndcp/v42bis.c:426-483. -/
def Vs.compress (s : Vs) (l : List UInt8) : VRes Vs := compLoop (2 * l.length) s l

/-- `v42bis_compress_flush`, /repo/src/sndcp/v42bis.c:486-510. -/
def Vs.compressFlush (s : Vs) : VRes Vs :=
  if s.updateAt ≠ 0 then .ok s
  else do
    let s ← if s.lastMatched ≠ 0 then do
        let t ← s.sendData s.lastMatched
        .ok { t with flushed := t.flushed + s.str.length }
      else .ok s
    if s.transparent then .ok s.flushOctets
    else .ok (({ s with updateAt := s.lastMatched, lastMatched := 0, flushed := 0 }.pushCode 1).align).flushOctets

/-! ## Decompression -/

/-- One round of the inner loop on an octet in transparent mode, /repo/src/sndcp/v42bis.c:580-611: whether the octet was
taken. -/
def Vs.plainRound (s : Vs) (o : UInt8) : VRes (Vs × Bool) := do
  let s ← s.update o
  let code ← matchOctet s.dict s.lastMatched o
  if code = 0 then .ok ({ ({ s with updateAt := s.lastMatched }.sendString) with lastMatched := 0 }, false)
  else if code = s.lastAdded then .ok ({ ({ s with lastAdded := 0 }.sendString) with lastMatched := 0 }, false)
  else if 250 ≤ s.str.length then .ub .bounds
  else if s.str.length + 1 + s.flushed = s.n7 then
    .ok ({ ({ s with lastMatched := code, str := s.str ++ [o] }.sendString) with lastMatched := 0 }, true)
  else .ok ({ s with lastMatched := code, str := s.str ++ [o] }, true)

/-- An octet of data in transparent mode, at most two rounds, /repo/src/sndcp/v42bis.c:577-612. -/
def Vs.plainOctet (s : Vs) (o : UInt8) : VRes (Vs × Bool) := do
  let (s, taken) ← s.plainRound o
  if taken then .ok (s, true) else s.plainRound o

/-- Transparent mode, /repo/src/sndcp/v42bis.c:535-613.  (If two rounds do not take the octet it stays in the input.  An
escaped octet that stays would be read again as it is in the input: the dictionary sees to it that this does not happen,
because the second round begins without a string.) -/
def Vs.plainStep (s : Vs) (o : UInt8) (l : List UInt8) : VRes (Vs × List UInt8) :=
  if s.escaped then
    if o = 0 then
      .ok ({ ({ s with escaped := false }.sendString) with transparent := false, updateAt := s.lastMatched, lastMatched := 0 }, l)
    else if o = 1 then do
      let (t, taken) ← { s with escaped := false, esc := s.esc + 51 }.plainOctet s.esc
      .ok (t, if taken then l else o :: l)
    else if o = 2 then .ok ({ s with escaped := false }.sendString.initDict, l)
    else .fail
  else if o = s.esc then .ok ({ s with escaped := true }, l)
  else do
    let (t, taken) ← s.plainOctet o
    .ok (t, if taken then l else o :: l)

/-- "Get code from input", /repo/src/sndcp/v42bis.c:616-621.  An `int` is shifted: the result must be below 2³¹. -/
def fill : Vs → List UInt8 → VRes (Vs × List UInt8)
  | s, [] => .ok (s, [])
  | s, o :: l =>
    if s.bitCount < s.c2 then
      if 32 ≤ s.bitCount ∨ 2147483648 ≤ o.toNat <<< s.bitCount then .ub .shift
      else fill { s with bitBuf := s.bitBuf ||| o.toNat <<< s.bitCount, bitCount := s.bitCount + 8 } l
    else .ok (s, o :: l)

/-- `expand_codeword_to_string`, /repo/src/sndcp/v42bis.c:249-265: the octets from the last to the first. -/
def pathUp (D : Dict) : Nat → Nat → VRes (List UInt8)
  | 0, _ => .ub .hang
  | n + 1, p =>
    if p = 0 then .ok []
    else if 4096 ≤ p then .ub .bounds
    else do
      let l ← pathUp D n (D p).parent
      .ok ((D p).octet :: l)

/-- `expand_codeword_to_string`, /repo/src/sndcp/v42bis.c:249-265: written into `string` of 250 octets. -/
def Vs.expand (s : Vs) (code : Nat) : VRes Vs := do
  let l ← pathUp s.dict 4097 code
  if 250 < s.str.length + l.length then .ub .bounds else .ok { s with str := s.str ++ l.reverse }

/-- The dictionary after a codeword, /repo/src/sndcp/v42bis.c:661-674. -/
def Vs.learn (s : Vs) (code : Nat) : VRes Vs :=
  if s.updateAt ≠ 0 then do
    let p ← matchOctet s.dict s.updateAt (s.str.headD 0)
    if p = 0 then do
      let (t, x) ← s.addOctet s.updateAt (s.str.headD 0)
      if code = t.c1 then .fail else .ok { t with lastAdded := x }
    else if p = s.lastAdded then .ok { s with lastAdded := 0 }
    else .ok s
  else .ok s

/-- A codeword, /repo/src/sndcp/v42bis.c:657-682. -/
def Vs.codeword (s : Vs) (code : Nat) : VRes Vs :=
  if code = s.c1 then .fail
  else do
    let s ← s.expand code
    let s ← s.learn code
    .ok { s with updateAt := if s.str.length + s.flushed = s.n7 then 0 else code, esc := escAfter s.esc s.str }.sendString

/-- A control codeword, /repo/src/sndcp/v42bis.c:628-656. -/
def Vs.control (s : Vs) (code : Nat) : VRes Vs :=
  if code = 0 then .ok { s with bitCount := 0, transparent := true, lastMatched := 0, lastAdded := 0 }
  else if code = 1 then .ok { s with bitCount := 0 }
  else if s.n2 >>> 3 < s.c2 + 1 then .fail
  else .ok { s with c2 := s.c2 + 1, c3 := s.c3 * 2 % 65536 }

/-- Compressed mode, /repo/src/sndcp/v42bis.c:616-683; `code` is a `uint16_t`. -/
def Vs.codeStep (s : Vs) (l : List UInt8) : VRes (Vs × List UInt8) := do
  let (s, l) ← fill s l
  if s.bitCount < s.c2 then .ok (s, l)
  else if 31 ≤ s.c2 then .ub .shift
  else
    let code := s.bitBuf % 2 ^ s.c2 % 65536
    let s := { s with bitBuf := s.bitBuf >>> s.c2, bitCount := s.bitCount - s.c2 }
    do
      let s ← if code < 3 then s.control code else s.codeword code
      .ok (s, l)

/-- The loop of `v42bis_decompress`, /repo/src/sndcp/v42bis.c:531-684.  Each round takes an octet. -/
def decLoop : Nat → Vs → List UInt8 → VRes Vs
  | _, s, [] => .ok s
  | 0, _, _ :: _ => .ub .hang
  | n + 1, s, o :: l => do
    let (s, l) ← if s.transparent then s.plainStep o l else s.codeStep (o :: l)
    decLoop n s l

/-- `v42bis_decompress` with compression on, /repo/src/sndcp/v42bis.c:513-686. -/
def Vs.decompress (s : Vs) (l : List UInt8) : VRes Vs := decLoop (2 * l.length) s l

/-- `v42bis_decompress_flush`, /repo/src/sndcp/v42bis.c:689-700. -/
def Vs.decompressFlush (s : Vs) : Vs :=
  { s.sendString with flushed := s.str.length }.flushOctets

/-! ## Packets -/

/-- `v42bis_compress_unitdata` for a state with parameters P0, P1, P2, /repo/src/sndcp/sndcp_dcomp.c:145-210: the index of
the compression and the data.  The output buffer has ten times the size of the packet; it
is checked at the end, not at each call of the handler. -/
def compressUnitdata (p0 p1 p2 : Nat) (data : List UInt8) : VRes (Nat × List UInt8) :=
  if data.length < 100 ∨ p0 &&& 2 = 0 then .ok (0, data)
  else do
    let s ← (Vs.init p1 p2).compress data
    let s ← s.compressFlush
    if data.length * 10 < s.out.length then .ub .bounds
    else if data.length ≤ s.out.length then .ok (0, data)
    else .ok (1, s.out)

/-- `v42bis_expand_unitdata`, /repo/src/sndcp/sndcp_dcomp.c:213-247, into a buffer of `size` octets.  With P0 = 0 or 2 the
data is handed over as it is (/repo/src/sndcp/v42bis.c:525-530).  The buffer is checked at the end: an overflow before an error
is found in the data is not reported. -/
def expandUnitdata (p0 p1 p2 size : Nat) (data : List UInt8) (index : Nat) : VRes (List UInt8) :=
  if index = 0 then .ok data
  else if p0 &&& 1 = 0 then .ok data
  else do
    let s ← (Vs.init p1 p2).decompress data
    let s := s.decompressFlush
    if size < s.out.length then .ub .bounds else .ok s.out

/-- The buffer of `decompress_segment`, /repo/src/sndcp/sndcp.c:349-350: `MAX_DATADECOMPR_FAC` is 10 and
`MAX_HDRDECOMPR_INCR` 64. -/
def expandSize (len : Nat) : Nat := len * 10 + 64

end Verif.V42
