import Verif.Rlc.EgprsFill
import Verif.Rlc.EncLemmas
import Verif.Spec.Egprs
/-!
# C194: an uplink EGPRS block says which LLC data it carries
-/
namespace Verif.Props
open Verif Verif.Rlc Verif.Spec

/-! ## Specification -/

/-- The pieces of LLC PDUs an uplink EGPRS payload carries (3GPP TS 44.060, 10.3a.2 and 10.4.14a): `tlli` = TI, `e` = E,
`isLast` = it is the last block of the TBF.  As downlink (`piecesEgprs`), with the TLLI behind the length indicators. -/
def piecesUlEgprs (tlli e isLast : Bool) (payload : Octets) : Option (List Piece) :=
  let skip := if tlli then 4 else 0
  if e then cut isLast true [] (payload.drop skip)
  else (readLisEgprs true payload).bind fun r => cut isLast r.2.1 r.1 (r.2.2.drop skip)

/-- The frames taken out of a queue whole and in part, and what stays, make up the queue. -/
def MadeOf (q : List Octets) (ps : List Piece) (left : List Octets) : Prop :=
  ∃ done p, reassemble [] ps = (done, p) ∧
    (p = [] ∧ q = done ++ left ∨ ∃ r rest, left = r :: rest ∧ q = done ++ (p ++ r) :: rest)

/-- A TLLI as uplink EGPRS blocks carry it: least significant octet first (TS 44.060 10.3a.2). -/
def tlliEgprs (t : Nat) : Octets := (List.range 4).map fun i => UInt8.ofNat (t / 256 ^ i)

/-- **C194**, full statement.  An EGPRS block (payloads have 22 to 74 octets) filled from a queue of LLC frames can be
read, and carries what has been taken from the queue.  The countdown value is zero only if nothing is left. -/
def C194Statement : Prop :=
  ∀ len cv tlli q b left, 22 ≤ len → len ≤ 74 → cv < 16 → (∀ m ∈ q, m ≠ []) →
    createBlockEg len cv tlli q = .ok (b, left) → (cv = 0 → left = []) →
    ∃ ps, piecesUlEgprs b.ti b.e (cv = 0) b.data = some ps ∧ MadeOf q ps left

/-! ## The refutation -/

/-- The last block of a TBF, with one frame of five octets. -/
theorem one_frame : createBlockEg 22 0 none [[1, 2, 3, 4, 5]] =
    .ok (⟨false, false, 0, [0x14, 0xff, 1, 2, 3, 4, 5] ++ List.replicate 15 0x2b⟩, []) := by decide +kernel

/-- **C194 is violated**: the length is written in the format of GPRS, so the frame is read with five filling octets at
its end. -/
theorem c194_violated : ¬ C194Statement := by
  intro h
  obtain ⟨ps, h1, done, p, h2, h3⟩ := h 22 0 none [[1, 2, 3, 4, 5]] _ _ (by decide) (by decide) (by decide) (by decide) one_frame
    (fun _ => rfl)
  have e : piecesUlEgprs false false true ([0x14, 0xff, 1, 2, 3, 4, 5] ++ List.replicate 15 0x2b) =
      some [([1, 2, 3, 4, 5, 0x2b, 0x2b, 0x2b, 0x2b, 0x2b], true)] := by decide +kernel
  have h4 := h1.symm.trans e
  injection h4 with h4
  subst h4
  have h5 : reassemble [] [([1, 2, 3, 4, 5, 0x2b, 0x2b, 0x2b, 0x2b, 0x2b], true)] =
      ([[1, 2, 3, 4, 5, 0x2b, 0x2b, 0x2b, 0x2b, 0x2b]], []) := by decide +kernel
  rw [h5] at h2
  injection h2 with h2 h6
  subst h2 h6
  rcases h3 with ⟨-, h3⟩ | ⟨r, rest, h3, -⟩
  · exact absurd h3 (by decide)
  · cases h3

/-! ## What happens to every frame that leaves space -/

theorem liOct_pad : ∀ l, l < 64 → UInt8.ofNat (l * 4 + 1) &&& 0xfe = UInt8.ofNat (l * 4) := by decide +kernel
theorem liOct_read : ∀ l, l < 64 → (UInt8.ofNat (l * 4)).toNat = l * 4 := by decide +kernel

theorem padEgprs_one (m : Octets) (k : Nat) (e : Bool) (h64 : m.length < 64) :
    padEgprs ⟨UInt8.ofNat (m.length * 4 + 1) :: (m ++ List.replicate (k + 1) 0x2b), m.length + 1, 1, e⟩ =
      .ok ⟨UInt8.ofNat (m.length * 4) :: 0xff :: (m ++ List.replicate k 0x2b), m.length + 2 + k, 2, e⟩ := by
  generalize hx : UInt8.ofNat (m.length * 4 + 1) = x
  have hx' : x &&& 0xfe = UInt8.ofNat (m.length * 4) := by rw [← hx]; exact liOct_pad _ h64
  obtain ⟨z, Z, hZ, hZl⟩ : ∃ z Z, m ++ List.replicate (k + 1) (0x2b : UInt8) = z :: (Z ++ List.replicate k 0x2b) ∧
      Z.length = m.length := by
    cases m with
    | nil => exact ⟨0x2b, [], rfl, rfl⟩
    | cons y ys => exact ⟨y, ys ++ [0x2b], by simp [List.replicate_succ], by simp⟩
  have e1 : rdN (x :: (m ++ List.replicate (k + 1) 0x2b)) 1 (m.length + 1 - 1) = .ok m := by
    simp [rdN]; omega
  have e2 : copyTo (x :: (m ++ List.replicate (k + 1) 0x2b)) (1 + 1) m = .ok ([x, z] ++ (m ++ List.replicate k 0x2b)) := by
    rw [hZ]
    exact copyTo_append [x, z] Z _ m hZl.symm
  have e3 : copyTo ([x, z] ++ (m ++ List.replicate k 0x2b)) 1 [0xff] = .ok ([x] ++ ([0xff] ++ (m ++ List.replicate k 0x2b))) :=
    copyTo_append [x] [z] _ [0xff] rfl
  have e4 : modLi 1 ([x] ++ ([0xff] ++ (m ++ List.replicate k 0x2b))) (· &&& 0xfe) =
      .ok ((x &&& 0xfe) :: 0xff :: (m ++ List.replicate k 0x2b)) := rfl
  unfold padEgprs
  dsimp only
  rw [e1, Res.bind_ok, e2, Res.bind_ok, e3, Res.bind_ok, e4, Res.bind_ok, hx']
  simp
  omega

/-- The block for one frame that leaves an octet: the octet with its length, in the format of GPRS; the octet for
filling; the frame; filling octets. -/
theorem createBlockEg_one (len cv : Nat) (m : Octets) (h1 : m ≠ []) (h64 : m.length < 64) (h2 : m.length + 2 ≤ len) :
    createBlockEg len cv none [m] = .ok (⟨false, false, cv,
      UInt8.ofNat (m.length * 4) :: 0xff :: (m ++ List.replicate (len - 2 - m.length) 0x2b)⟩, []) := by
  have i : EncInv len [] [] { buf := List.replicate len 0x2b, offset := 0, numChunks := 0, e := true } :=
    ⟨rfl, rfl, by simp [used], by simp, by simp [lisEnd, used], rfl⟩
  have hl : m.length ≠ 0 := fun h => h1 (List.length_eq_zero_iff.mp h)
  obtain ⟨st, e1, i1⟩ := appendUl_less i (decide (cv = 0)) m h64 (by simp [used]; omega)
  obtain ⟨k, hk⟩ : ∃ k, len = m.length + 2 + k := ⟨len - (m.length + 2), by omega⟩
  have hb : st.buf = UInt8.ofNat (m.length * 4 + 1) :: (m ++ List.replicate (k + 1) 0x2b) := by
    rw [i1.buf]
    simp [lisEnd, used, liOct]
    omega
  have hst : st = ⟨UInt8.ofNat (m.length * 4 + 1) :: (m ++ List.replicate (k + 1) 0x2b), m.length + 1, 1, false⟩ := by
    have hnc : st.numChunks = 1 := i1.nc
    have hoff : st.offset = m.length + 1 := by rw [i1.off]; simp [used]; omega
    have he : st.e = false := i1.e
    cases st
    simp_all
  have hr : (if len - (([] : Octets).length + used []) - 1 - m.length > 0 then AppendResult.completedSpaceLeft
      else .completedBlockFilled) = .completedSpaceLeft := if_pos (by simp [used]; omega)
  rw [hr] at e1
  unfold createBlockEg
  rw [if_neg (by simp)]
  simp only [Res.bind_ok]
  unfold fillLoopEg
  rw [if_neg hl, e1]
  simp only [Res.bind_ok]
  unfold fillLoopEg
  rw [hst, if_pos (Nat.zero_lt_one), padEgprs_one m k false h64]
  simp only [Res.bind_ok]
  have : len - 2 - m.length = k := by omega
  rw [this]
  rfl

/-- **C194 for frames that leave space**: for every frame (of less than 64 octets) alone in a block with at least one
octet left, with any countdown value, the block is read as a frame of twice the length, which has filling octets at its
end, or cannot be read at all; so the network never gets the frame. -/
theorem c194_never (len cv : Nat) (m : Octets) (h1 : m ≠ []) (h64 : m.length < 64) (h2 : m.length + 2 ≤ len) :
    ∃ b, createBlockEg len cv none [m] = .ok (b, []) ∧
      piecesUlEgprs b.ti b.e (cv = 0) b.data =
        (if 2 * m.length + 2 ≤ len then some [(m ++ List.replicate m.length 0x2b, true)] else none) ∧
      ∀ ps, piecesUlEgprs b.ti b.e (cv = 0) b.data = some ps → ¬ MadeOf [m] ps [] := by
  have hl : m.length ≠ 0 := fun h => h1 (List.length_eq_zero_iff.mp h)
  have hp : piecesUlEgprs false false (decide (cv = 0))
      (UInt8.ofNat (m.length * 4) :: 0xff :: (m ++ List.replicate (len - 2 - m.length) 0x2b)) =
        (if 2 * m.length + 2 ≤ len then some [(m ++ List.replicate m.length 0x2b, true)] else none) := by
    have hL : readLisEgprs true (UInt8.ofNat (m.length * 4) :: 0xff :: (m ++ List.replicate (len - 2 - m.length) 0x2b)) =
        some ([2 * m.length], false, m ++ List.replicate (len - 2 - m.length) 0x2b) := by
      have h3 : m.length * 4 / 2 = 2 * m.length := by omega
      have h4 : m.length * 4 % 2 = 0 := by omega
      simp only [readLisEgprs, liOct_read _ h64, h3, h4]
      simp
    unfold piecesUlEgprs
    rw [hL]
    simp only [Bool.false_eq_true, if_false, Option.bind_some, List.drop_zero, cut]
    by_cases h5 : 2 * m.length + 2 ≤ len
    · rw [if_pos h5, if_pos (by simp; omega)]
      have : List.take (2 * m.length) (m ++ List.replicate (len - 2 - m.length) (0x2b : UInt8)) =
          m ++ List.replicate m.length 0x2b := by
        rw [List.take_append, List.take_of_length_le (by omega), List.take_replicate]
        congr 2
        omega
      rw [this]
      simp
    · rw [if_neg h5, if_neg (by simp; omega)]
  refine ⟨_, createBlockEg_one len cv m h1 h64 h2, hp, ?_⟩
  intro ps h
  rw [hp] at h
  split at h
  · injection h with h
    subst h
    rintro ⟨done, p, h3, h4⟩
    injection h3 with h3 h5
    subst h3 h5
    rcases h4 with ⟨-, h4⟩ | ⟨r, rest, h4, -⟩
    · have := congrArg (fun l => (l.map List.length).sum) h4
      simp at this
      omega
    · cases h4
  · cases h

/-- The theorem is not empty: a frame of five octets in a block of MCS-1, and one of 15 octets, which cannot be read. -/
example : ([1, 2, 3, 4, 5] : Octets) ≠ [] ∧ ([1, 2, 3, 4, 5] : Octets).length + 2 ≤ 22 := by decide
example : piecesUlEgprs false false true ([60, 0xff] ++ List.replicate 15 7 ++ List.replicate 5 0x2b) = none := by
  decide +kernel

/-! ## What holds -/

theorem tlli_reverse (t : Nat) : (tlliOctets t).reverse = tlliEgprs t := by
  simp [tlliOctets, tlliEgprs, List.range_succ]

/-- The octets before the LLC data. -/
def tlliHdr (tlli : Option Nat) : Octets := match tlli with | some t => tlliEgprs t | none => []

/-- The start of the block. -/
theorem createBlockEg_start (len cv : Nat) (tlli : Option Nat) (q : List Octets) (hlen : 4 ≤ len) (hq : q ≠ []) :
    ∃ st0, EncInv len (tlliHdr tlli) [] st0 ∧ createBlockEg len cv tlli q =
      (do let (st, q') ← fillLoopEg (cv = 0) st0 q
          .ok ({ ti := tlli.isSome, e := st.e, cv, data := st.buf }, q')) := by
  cases tlli with
  | none =>
    refine ⟨{ buf := List.replicate len 0x2b, offset := 0, numChunks := 0, e := true },
      ⟨rfl, rfl, by simp [used, tlliHdr], by simp, by simp [lisEnd, used, tlliHdr], rfl⟩, ?_⟩
    unfold createBlockEg
    rw [if_neg hq]
    rfl
  | some t =>
    have hl : (tlliEgprs t).length = 4 := by simp [tlliEgprs]
    have hc : copyTo (List.replicate len (0x2b : UInt8)) 0 (tlliEgprs t) =
        .ok (tlliEgprs t ++ List.replicate (len - 4) 0x2b) := by
      unfold copyTo
      rw [if_pos (by rw [hl, List.length_replicate]; omega), hl]
      simp
    refine ⟨{ buf := tlliEgprs t ++ List.replicate (len - 4) 0x2b, offset := 4, numChunks := 0, e := true },
      ⟨rfl, by simp [used, tlliHdr, hl], by simp [used, tlliHdr, hl]; omega, by simp,
        by simp [lisEnd, used, tlliHdr, hl], rfl⟩, ?_⟩
    unfold createBlockEg
    rw [if_neg hq]
    simp only [tlli_reverse, hc, Res.bind_ok]

theorem tlliHdr_length (tlli : Option Nat) : (tlliHdr tlli).length = if tlli.isSome then 4 else 0 := by
  cases tlli <;> simp [tlliHdr, tlliEgprs]

/-- **C194** (partial): it holds for a block that begins with a frame longer than the space behind the TLLI, unless it is
the last block, and for the last block of a TBF with a frame that fills it.  The TLLI is where it belongs. -/
theorem c194_partial (len cv : Nat) (tlli : Option Nat) (m : Octets) (q : List Octets) (hlen : 4 < len)
    (hm : len - (if tlli.isSome then 4 else 0) < m.length ∧ cv ≠ 0 ∨ len - (if tlli.isSome then 4 else 0) = m.length ∧ cv = 0) :
    ∃ b left ps, createBlockEg len cv tlli (m :: q) = .ok (b, left) ∧ b.ti = tlli.isSome ∧ b.cv = cv ∧
      (∀ t, tlli = some t → b.data.take 4 = tlliEgprs t) ∧
      piecesUlEgprs b.ti b.e (cv = 0) b.data = some ps ∧ MadeOf (m :: q) ps left := by
  obtain ⟨st0, i, e⟩ := createBlockEg_start len cv tlli (m :: q) (by omega) (by simp)
  have hS : len - ((tlliHdr tlli).length + used []) = len - (if tlli.isSome then 4 else 0) := by
    rw [tlliHdr_length]; rfl
  have hpos : 0 < len - (if tlli.isSome then 4 else 0) := by split <;> omega
  generalize len - (if tlli.isSome then 4 else 0) = S at *
  have hl : (m.take S).length = S := by rw [List.length_take]; omega
  have hne : m.take S ≠ [] := by
    intro h
    rw [h] at hl
    simp at hl
    omega
  have hskip : (tlliHdr tlli ++ m.take S).drop (if tlli.isSome then 4 else 0) = m.take S := by
    rw [← tlliHdr_length]; simp
  have hp : piecesUlEgprs tlli.isSome true (decide (cv = 0)) (tlliHdr tlli ++ m.take S) =
      some [(m.take S, decide (cv = 0))] := by
    unfold piecesUlEgprs
    rw [if_pos rfl]
    rw [hskip]
    show some (if (true = true ∧ m.take S ≠ []) then [(m.take S, decide (cv = 0))] else []) = _
    rw [if_pos ⟨rfl, hne⟩]
  have ht : ∀ t, tlli = some t → (tlliHdr tlli ++ m.take S).take 4 = tlliEgprs t := by
    intro t ht
    subst ht
    have : (tlliEgprs t).length = 4 := by simp [tlliEgprs]
    show (tlliEgprs t ++ m.take S).take 4 = _
    rw [List.take_append_of_le_length (by omega), List.take_of_length_le (by omega)]
  rcases hm with ⟨hm, hcv⟩ | ⟨hm, rfl⟩
  · obtain ⟨st', a, b, c⟩ := appendUl_open i (decide (cv = 0)) m (by rw [hS]; exact hm)
    rw [hS] at a b
    have hf : fillLoopEg (decide (cv = 0)) st0 (m :: q) = .ok (st', m.drop S :: q) := by
      unfold fillLoopEg
      rw [if_neg (by omega), a]
      rfl
    rw [hf] at e
    have hb : st'.buf = tlliHdr tlli ++ m.take S := by rw [b]; simp [render]
    have he : st'.e = true := c
    refine ⟨_, _, [(m.take S, decide (cv = 0))], e, rfl, rfl, ?_, ?_, [], m.take S, ?_, Or.inr ⟨m.drop S, q, rfl, ?_⟩⟩
    · rw [hb]; exact ht
    · rw [hb, he]; exact hp
    · simp [hcv, reassemble]
    · simp
  · obtain ⟨st', a, b, c⟩ := appendUl_exact i m (by rw [hS]; exact hm.symm)
    have hf : fillLoopEg (decide (0 = 0)) st0 (m :: q) = .ok (st', q) := by
      unfold fillLoopEg
      rw [if_neg (by omega), decide_eq_true rfl, a]
      rfl
    rw [hf] at e
    have hmS : m.take S = m := List.take_of_length_le (by omega)
    have hb : st'.buf = tlliHdr tlli ++ m.take S := by rw [b, hmS]; simp [render]
    have he : st'.e = true := c
    refine ⟨_, _, [(m.take S, decide (0 = 0))], e, rfl, rfl, ?_, ?_, [m], [], ?_, Or.inl ⟨rfl, rfl⟩⟩
    · rw [hb]; exact ht
    · rw [hb, he]; exact hp
    · simp [reassemble, hmS]

/-- The theorem is not empty: both cases, with a payload of 22 octets, with and without a TLLI. -/
example : (22 - (if (some 0xc0001234 : Option Nat).isSome then 4 else 0) < (List.replicate 30 (7 : UInt8)).length ∧ 15 ≠ 0) ∧
    (22 - (if (none : Option Nat).isSome then 4 else 0) = (List.replicate 22 (7 : UInt8)).length ∧ 0 = 0) := by
  decide

end Verif.Props
