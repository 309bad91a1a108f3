import Verif.Csn1.Tables

/-!
# A static check of descriptor tables

`ckL` walks a table once and bounds, for every line, where the decoder can store: how large the count
members can be (from the width of the field they were read from), and how many elements the number of
bits received allows.  `Verif.Csn1.CheckLemmas` proves that a table passing the check is decoded without
undefined behaviour whatever the received bits.
-/
namespace Verif.Csn1

/-- A known bound: the byte at `off` is at most `max`.  `life` is the number of further lines for which
this is known (`none`: to the end of the table): what was stored by a line that may be skipped is not
known behind the skipped part. -/
structure Fact where
  off : Nat
  max : Nat
  life : Option Nat

/-- Bound for the byte at `off`. -/
def bound (F : List Fact) (off : Nat) : Nat :=
  match F with
  | [] => 255
  | f :: F => if f.off = off ∧ f.life ≠ some 0 then min f.max (bound F off) else bound F off

/-- Go on by one line. -/
def tick (F : List Fact) : List Fact :=
  F.map fun f => { f with life := f.life.map (· - 1) }

/-- Forget what is known about the bytes from `lo` up to, not including, `hi`. -/
def kill (F : List Fact) (lo hi : Nat) : List Fact := F.filter fun f => f.off < lo || hi ≤ f.off

/-- Forget what is known from `lo` on. -/
def killFrom (F : List Fact) (lo : Nat) : List Fact := F.filter fun f => f.off < lo

/-- Shortest of the running skipped parts. -/
def shortest : List Nat → Option Nat
  | [] => none
  | g :: G => match shortest G with
    | none => some g
    | some h => some (min g h)

mutual

/-- Lowest offset a line can store at. -/
def lowD : Csn → Nat
  | .bit off .. => off
  | .null _ => 0
  | .uint off .. => off
  | .uintOfs off .. => off
  | .uintLh off .. => off
  | .uintArr off .. => off
  | .typ off .. => off
  | .tarr off .. => off
  | .vtarr _ off .. => off
  | .bitmap off .. => off
  | .choice off _ _ subs => min off (lowC subs)
  | .serialize off .. => off
  | .union _ off .. => off
  | .exist _ off .. => off
  | .nextExist _ off .. => off
  | .varBmp off .. => off
  | .leftBmp _ off _ cnt _ => min off cnt
  | .padding => 0
  | .varArr off .. => off
  | .recArr off _ cnt _ => min off cnt
  | .recTArr off _ _ _ cnt _ => min off cnt
  | .recTArr1 off _ _ _ cnt _ => min off cnt
  | .fixed .. => 0
  | .cbCopy _ dst .. => dst
  | .cbTddMap _ dst => dst
  | .cbTddCells _ => 0
  | .trap _ => 0

/-- Lowest offset any of the alternatives of a choice can store at. -/
def lowC : List Csn → Nat
  | [] => 0
  | [d] => lowD d
  | d :: ds => min (lowD d) (lowC ds)

end

/-- What is known after a line, given what was known before.  `mk` says for how long new knowledge
lasts; `none` forbids new knowledge (alternatives of a union). -/
def after (mk : Option (Option Nat)) (d : Csn) (F : List Fact) : List Fact :=
  match d with
  | .bit off _ _ => kill F off (off + 1)
  | .uint off _ bits _ =>
    let F := kill F off (off + uintW bits)
    match mk with
    | some l => if bits ≤ 8 then ⟨off, 2 ^ bits - 1, l⟩ :: F else F
    | none => F
  | .uintOfs off _ bits value =>
    let F := kill F off (off + uintW bits)
    match mk with
    | some l => if bits ≤ 8 then ⟨off, 2 ^ bits - 1 + value, l⟩ :: F else F
    | none => F
  | .uintLh off _ _ => kill F off (off + 1)
  | .union _ off _ _ => kill F off (off + 1)
  | .exist _ off _ => kill F off (off + 1)
  | .nextExist _ off _ _ _ => kill F off (off + 1)
  | .null _ => F
  | .padding => F
  | .fixed .. => F
  | .cbTddCells _ => F
  | .trap _ => F
  | d => killFrom F (lowD d)

/-- A store of at most `len` bytes at member `off` of `sz` bytes, the structure starting at most at `B`. -/
def ckW (p : Pol) (B off sz len : Nat) : Bool := p.store B off sz 0 len

/-- Array of `n` elements. -/
def ckE (p : Pol) (sz esz n : Nat) : Bool :=
  match p with
  | .member => n * esz ≤ sz
  | .object _ => true

mutual

/-- Number of bits a line uses up at least. -/
def minD : Csn → Nat
  | .uint _ _ bits orNull => if orNull then 0 else bits
  | .typ _ orNull sub => if orNull then 0 else minL sub
  | _ => 0

/-- Number of bits a table uses up at least. -/
def minL : List Csn → Nat
  | [] => 0
  | d :: ds =>
    match d with
    | .union _ _ _ count => ixBits count + minAlt count ds
    | .nextExist _ _ _ _ orNull => if orNull then 0 else 1
    | .exist .. => 0
    | d => minD d + minL ds

/-- Number of bits each of the first lines uses up at least. -/
def minAlt : Nat → List Csn → Nat
  | _, [] => 0
  | n, d :: ds => if n = 0 then 0 else if n = 1 then minD d else min (minD d) (minAlt (n - 1) ds)

end

/-- Bits left after a line that is certainly decoded (`b`) and uses up at least `n`. -/
def eat (b : Bool) (n R : Nat) : Nat := if b then R - n else R

mutual

/-- Check one line; `R` bounds the number of bits left, `B` the address of the structure. -/
def ckD (p : Pol) (R : Nat) (u : Bool) (B : Nat) (F : List Fact) : Csn → Bool
  | .bit off sz _ => ckW p B off sz 1
  | .null _ => true
  | .uint off sz bits _ => bits > 32 || ckW p B off sz (uintW bits)
  | .uintOfs off sz bits _ => bits > 32 || ckW p B off sz (uintW bits)
  | .uintLh off sz bits => bits > 8 || ckW p B off sz 1
  | .uintArr off sz bits count => ckW p B off sz (count * if bits ≤ 8 then 1 else 2)
  | .typ off _ sub => ckL p R (B + off) [] [] 0 sub
  | .tarr off sz esz count sub =>
    ckE p sz esz count && ckL p R (B + off + (count - 1) * esz) [] [] 0 sub
  | .vtarr ofs off sz esz cnt sub =>
    !(u && ofs) && ckE p sz esz (bound F cnt) &&
      ckL p R (B + off + (bound F cnt - 1) * esz) [] [] 0 sub
  | .bitmap off sz bits =>
    bits = 0 || bits > 64 || ckW p B off sz (if bits ≤ 32 then 4 else 8)
  | .choice off sz _ subs => u || (ckW p B off sz 1 && ckC p R B subs)
  | .serialize off _ sub => u || ckL p (max R 255) (B + off) [] [] 0 sub
  | .varBmp off sz cnt adj => u || ckW p B off sz ((min R (bound F cnt + adj) + 7) / 8)
  | .leftBmp toEnd off sz cnt adj =>
    u || ((!toEnd || ckW p B cnt 1 1) &&
      ckW p B off sz ((min R ((if toEnd then 255 else bound F cnt) + adj) + 7) / 8))
  | .padding => true
  | .varArr off sz cnt adj => u || ckW p B off sz (min (R / 8) (bound F cnt + adj))
  | .recArr off sz cnt bits => u || (ckW p B off sz (R / (1 + bits) + 1) && ckW p B cnt 1 1)
  | .recTArr off sz esz cap cnt sub =>
    u || (ckE p sz esz cap && ckL p R (B + off + (cap - 1) * esz) [] [] 0 sub && ckW p B cnt 1 1)
  | .recTArr1 off sz esz cap cnt sub =>
    u || (ckE p sz esz cap && ckL p R (B + off + (cap - 1) * esz) [] [] 0 sub && ckW p B cnt 1 1)
  | .fixed .. => true
  | .cbCopy _ dst esz lim => u || ckW p B dst (lim - dst) (15 * esz + 1)
  | .cbTddMap _ dst => u || ckW p B dst 1 1
  | .cbTddCells _ => true
  | .trap _ => true
  | .union _ off sz _ => ckW p B off sz 1
  | .exist _ off sz => ckW p B off sz 1
  | .nextExist _ off sz _ _ => ckW p B off sz 1

/-- Check the alternatives of a choice. -/
def ckC (p : Pol) (R : Nat) (B : Nat) : List Csn → Bool
  | [] => true
  | d :: ds => ckD p R false B [] d && ckC p R B ds

/-- Check the lines of a table: `F` is what is known, `G` the numbers of lines up to the ends of the
parts that may be skipped, `un` the number of lines that are alternatives of a union. -/
def ckL (p : Pol) (R : Nat) (B : Nat) (F : List Fact) (G : List Nat) (un : Nat) : List Csn → Bool
  | [] => G.all (· = 0) && un = 0
  | d :: ds =>
    let sure := G.all (· = 0) && un = 0
    let G := (G.filter (· ≠ 0)).map (· - 1)
    ckD p R (un ≠ 0) B F d &&
    match d with
    | .union _ _ _ count =>
      un = 0 && G.all (count ≤ ·) && ckL p (eat sure (ixBits count) R) B (tick (after none d F)) G count ds
    | .nextExist _ _ _ n orNull =>
      un = 0 && ckL p (eat (sure && !orNull) 1 R) B (tick (after none d F)) (n :: G) 0 ds
    | .exist .. =>
      un = 0 && ckL p (eat sure 1 R) B (tick (after none d F)) G 0 ds
    | d =>
      ckL p (eat sure (minD d) R) B
        (if un ≠ 0 then tick (after none d F) else after (some (shortest G)) d (tick F)) G (un - 1) ds

end

end Verif.Csn1
