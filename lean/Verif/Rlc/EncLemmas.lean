import Verif.Rlc.Enc
import Verif.Spec.RlcBlock

/-!
# Lemmas about the RLC uplink block encoder (proof devices)

`clean` is a description of what a block gets to carry; `fillLoop_clean` shows the encoder of the model
produces it, `pieces_*` that the decoder of the specification reads it back.
-/
namespace Verif.Rlc

open Verif.Spec

/-! ## Buffers -/

theorem modAt_append (A B : Octets) (x : UInt8) (f : UInt8 → UInt8) :
    modAt (A ++ x :: B) A.length f = .ok (A ++ f x :: B) := by
  simp [modAt]

theorem copyTo_append (A M B src : Octets) (h : src.length = M.length) :
    copyTo (A ++ (M ++ B)) A.length src = .ok (A ++ (src ++ B)) := by
  unfold copyTo
  rw [if_pos (by simp; omega)]
  have e : A.length + src.length = (A ++ M).length := by simp; omega
  rw [e, ← List.append_assoc A M B, List.drop_left, List.append_assoc A M B, List.take_left]
  simp

/-! ## Length indicator octets -/

/-- The octet with length `l` and low bits `b`. -/
def liOct (l b : Nat) : UInt8 := UInt8.ofNat (l * 4 + b)

/-- Length indicators of the delimited frames; the last one has low bits `b`. -/
def lisEnd (b : Nat) (done : List Octets) : Octets :=
  match done.getLast? with
  | none => []
  | some d => (done.dropLast.map fun x => liOct x.length 2) ++ [liOct d.length b]

@[simp] theorem lisEnd_nil (b : Nat) : lisEnd b [] = [] := rfl

@[simp] theorem lisEnd_snoc (b : Nat) (ds : List Octets) (d : Octets) :
    lisEnd b (ds ++ [d]) = (ds.map fun x => liOct x.length 2) ++ [liOct d.length b] := by
  simp [lisEnd]

theorem snoc_cases (l : List Octets) : l = [] ∨ ∃ ds d, l = ds ++ [d] := by
  rcases List.eq_nil_or_concat l with h | ⟨ds, d, h⟩
  · exact Or.inl h
  · exact Or.inr ⟨ds, d, by simpa using h⟩

@[simp] theorem lisEnd_length (b : Nat) (done : List Octets) : (lisEnd b done).length = done.length := by
  rcases snoc_cases done with h | ⟨ds, d, h⟩ <;> subst h <;> simp

theorem liOct_or2 : ∀ l, l < 64 → liOct l 1 ||| 0x02 = liOct l 3 := by decide +kernel
theorem liOct_or1 : ∀ l, l < 64 → liOct l 1 ||| 0x01 = liOct l 1 := by decide +kernel
theorem liOct_mid : ∀ l, l < 64 → (liOct l 1 &&& 0xfe) ||| 0x02 = liOct l 2 := by decide +kernel

/-- Changing the low bits of the last length indicator through `e_pointer`. -/
theorem modLast (done : List Octets) (B : Octets) (f : UInt8 → UInt8) (b : Nat)
    (hl : ∀ d ∈ done, d.length < 64) (hf : ∀ l, l < 64 → f (liOct l 1) = liOct l b) :
    modLi done.length (lisEnd 1 done ++ B) f = .ok (lisEnd b done ++ B) := by
  unfold modLi
  rcases snoc_cases done with h | ⟨ds, d, h⟩
  · subst h; simp
  · subst h
    rw [if_pos (by simp)]
    have e : (ds ++ [d]).length - 1 = (ds.map fun x => liOct x.length 2).length := by simp
    rw [e, lisEnd_snoc, lisEnd_snoc, List.append_assoc, List.singleton_append, modAt_append,
      hf _ (hl d (by simp))]
    simp

/-! ## What a block carries -/

/-- How a block ends. -/
inductive Tail where
  | pad | opn (t : Octets) | li0 (t : Octets) | exact (t : Octets)

/-- The frames delimited in a block with `space` octets left, how it ends, and the LLC data left over. -/
def clean (isFinal : Bool) : Nat → List Octets → List Octets → List Octets × Tail × List Octets
  | _, done, [] => (done, .pad, [])
  | space, done, m :: q =>
    if m.length > space then (done, .opn (m.take space), m.drop space :: q)
    else if m.length = space then
      if isFinal then (done, .exact m, q)
      else (done, .li0 (m.take (space - 1)), m.drop (space - 1) :: q)
    else if m.length + 1 = space then (done ++ [m], .pad, q)
    else clean isFinal (space - 1 - m.length) (done ++ [m]) q

/-- Octets taken by delimited frames. -/
def used (done : List Octets) : Nat := done.length + done.flatten.length

theorem used_snoc (ds : List Octets) (d : Octets) : used (ds ++ [d]) = used ds + 1 + d.length := by
  simp [used]; omega

/-- The payload of a block. -/
def render (len : Nat) (hdr : Octets) (done : List Octets) : Tail → Octets
  | .pad => lisEnd 1 done ++ (hdr ++ done.flatten ++ List.replicate (len - (hdr.length + used done)) 0x2b)
  | .opn t => lisEnd 3 done ++ (hdr ++ done.flatten ++ t)
  | .li0 t => lisEnd 2 done ++ (liOct 0 1 :: (hdr ++ done.flatten ++ t))
  | .exact t => lisEnd 1 done ++ (hdr ++ done.flatten ++ t)

/-- E bit of a block. -/
def renderE (done : List Octets) : Tail → Bool
  | .li0 _ => false
  | _ => done.isEmpty

structure EncInv (len : Nat) (hdr : Octets) (done : List Octets) (st : EncSt) : Prop where
  nc : st.numChunks = done.length
  off : st.offset = hdr.length + used done
  le : hdr.length + used done ≤ len
  small : ∀ d ∈ done, d.length < 64
  buf : st.buf = lisEnd 1 done ++ (hdr ++ done.flatten ++ List.replicate (len - (hdr.length + used done)) 0x2b)
  e : st.e = done.isEmpty

theorem EncInv.len_eq {len hdr done st} (i : EncInv len hdr done st) : st.buf.length = len := by
  have := i.le
  rw [i.buf]
  simp [used] at *
  omega

/-- The start of the branches of `append_ul_data` that insert a length indicator: `x` is its octet. -/
theorem insert_li {len hdr done st} (i : EncInv len hdr done st) (hlt : hdr.length + used done < len) (x : UInt8) :
    ∃ b1 b2, (rdN st.buf st.numChunks (st.offset - st.numChunks)) = .ok (hdr ++ done.flatten) ∧
      copyTo st.buf (st.numChunks + 1) (hdr ++ done.flatten) = .ok b1 ∧
      modLi st.numChunks b1 (fun x => (x &&& 0xfe) ||| 0x02) = .ok b2 ∧
      copyTo b2 st.numChunks [x] = .ok (lisEnd 2 done ++ (x :: (hdr ++ done.flatten ++
        List.replicate (len - (hdr.length + used done) - 1) 0x2b))) := by
  obtain ⟨r, hr⟩ : ∃ r, len - (hdr.length + used done) = r + 1 := ⟨len - (hdr.length + used done) - 1, by omega⟩
  have hbuf := i.buf
  rw [hr] at hbuf
  have hY : st.offset - st.numChunks = (hdr ++ done.flatten).length := by
    rw [i.off, i.nc]; simp [used]; omega
  generalize hYd : hdr ++ done.flatten = Y at *
  have hnc : st.numChunks = (lisEnd 1 done).length := by rw [i.nc]; simp
  -- first octet behind the length indicators
  obtain ⟨z, Z, hZ⟩ : ∃ z Z, Y ++ List.replicate (r + 1) (0x2b : UInt8) = z :: Z := by
    cases hc : Y ++ List.replicate (r + 1) (0x2b : UInt8) with
    | nil => simp at hc
    | cons z Z => exact ⟨z, Z, rfl⟩
  have hb1 : copyTo st.buf (st.numChunks + 1) Y = .ok (lisEnd 1 done ++ (z :: (Y ++ List.replicate r 0x2b))) := by
    have e1 : st.buf = (lisEnd 1 done ++ [z]) ++ (Z.take Y.length ++ Z.drop Y.length) := by
      rw [hbuf, hZ, List.take_append_drop]; simp
    have hZl : Z.length = Y.length + r := by
      have := congrArg List.length hZ
      simp at this
      omega
    have e2 : Z.drop Y.length = List.replicate r 0x2b := by
      have h1 : Z = (Y ++ List.replicate (r + 1) (0x2b : UInt8)).drop 1 := by rw [hZ]; rfl
      rw [h1, List.drop_drop]
      have : 1 + Y.length = Y.length + 1 := by omega
      rw [this, ← List.drop_drop, List.drop_left]
      simp
    have e3 : st.numChunks + 1 = (lisEnd 1 done ++ [z]).length := by rw [hnc]; simp
    rw [e3, e1, copyTo_append _ _ _ _ (by rw [List.length_take]; omega), e2]
    simp
  refine ⟨_, lisEnd 2 done ++ (z :: (Y ++ List.replicate r 0x2b)), ?_, hb1, ?_, ?_⟩
  · rw [rdN_of_le (by rw [i.len_eq]; have := i.off; have := i.le; have h3 : st.numChunks ≤ used done := (by rw [i.nc]; simp [used]); omega), hY, hbuf, hnc,
      List.drop_left, List.take_left]
  · rw [i.nc]
    exact modLast done _ _ 2 i.small liOct_mid
  · have e : st.numChunks = (lisEnd 2 done).length := by rw [i.nc]; simp
    rw [e]
    have := copyTo_append (lisEnd 2 done) [z] (Y ++ List.replicate r 0x2b) [x] rfl
    simpa [hr] using this

theorem copy_tail (L Y R src : Octets) (x : UInt8) (h : src.length ≤ R.length) :
    copyTo (L ++ (x :: (Y ++ R))) (L.length + 1 + Y.length) src =
      .ok (L ++ (x :: (Y ++ (src ++ R.drop src.length)))) := by
  have := copyTo_append (L ++ x :: Y) (R.take src.length) (R.drop src.length) src (by simp; omega)
  rw [List.take_append_drop] at this
  simp at this
  have e : L.length + (Y.length + 1) = L.length + 1 + Y.length := by omega
  rw [e] at this
  simpa using this

theorem appendUl_open {len hdr done st} (i : EncInv len hdr done st) (isFinal : Bool) (m : Octets)
    (h : m.length > len - (hdr.length + used done)) :
    ∃ st', appendUl st isFinal m = .ok (st', m.drop (len - (hdr.length + used done)), .needMoreBlocks) ∧
      st'.buf = render len hdr done (.opn (m.take (len - (hdr.length + used done)))) ∧ st'.e = done.isEmpty := by
  have hsp : st.buf.length - st.offset = len - (hdr.length + used done) := by rw [i.len_eq, i.off]
  have hle := i.le
  unfold appendUl
  simp only [hsp, h, if_true]
  generalize hS : len - (hdr.length + used done) = S at *
  have hb := i.buf
  rw [hS] at hb
  have h1 : modLi st.numChunks st.buf (· ||| 0x02) =
      .ok (lisEnd 3 done ++ (hdr ++ done.flatten ++ List.replicate S 0x2b)) := by
    rw [hb, i.nc]
    exact modLast done _ _ 3 i.small liOct_or2
  have h2 : copyTo (lisEnd 3 done ++ (hdr ++ done.flatten ++ List.replicate S 0x2b)) st.offset (m.take S) =
      .ok (lisEnd 3 done ++ (hdr ++ done.flatten ++ m.take S)) := by
    have e : st.offset = (lisEnd 3 done ++ (hdr ++ done.flatten)).length := by rw [i.off]; simp [used]; omega
    rw [e]
    have := copyTo_append (lisEnd 3 done ++ (hdr ++ done.flatten)) (List.replicate S 0x2b) [] (m.take S)
      (by simp; omega)
    simpa using this
  rw [h1]
  simp only [Res.bind_ok, h2]
  exact ⟨_, rfl, rfl, i.e⟩

theorem appendUl_exact {len hdr done st} (i : EncInv len hdr done st) (m : Octets)
    (h : m.length = len - (hdr.length + used done)) :
    ∃ st', appendUl st true m = .ok (st', [], .completedBlockFilled) ∧
      st'.buf = render len hdr done (.exact m) ∧ st'.e = done.isEmpty := by
  have hsp : st.buf.length - st.offset = len - (hdr.length + used done) := by rw [i.len_eq, i.off]
  have hle := i.le
  unfold appendUl
  simp only [hsp, h]
  rw [if_neg (by omega), if_pos (by simp)]
  generalize hS : len - (hdr.length + used done) = S at *
  have hb := i.buf
  rw [hS] at hb
  have h1 : modLi st.numChunks st.buf (· ||| 0x01) =
      .ok (lisEnd 1 done ++ (hdr ++ done.flatten ++ List.replicate S 0x2b)) := by
    rw [hb, i.nc]
    exact modLast done _ _ 1 i.small liOct_or1
  have h2 : copyTo (lisEnd 1 done ++ (hdr ++ done.flatten ++ List.replicate S 0x2b)) st.offset (m.take S) =
      .ok (lisEnd 1 done ++ (hdr ++ done.flatten ++ m)) := by
    have e : st.offset = (lisEnd 1 done ++ (hdr ++ done.flatten)).length := by rw [i.off]; simp [used]; omega
    rw [e]
    have := copyTo_append (lisEnd 1 done ++ (hdr ++ done.flatten)) (List.replicate S 0x2b) [] (m.take S)
      (by simp; omega)
    rw [List.take_of_length_le (by omega)] at *
    simpa using this
  rw [h1]
  simp only [Res.bind_ok, h2]
  rw [List.drop_eq_nil_of_le (by omega)]
  exact ⟨_, rfl, rfl, i.e⟩

theorem appendUl_li0 {len hdr done st} (i : EncInv len hdr done st) (m : Octets)
    (hlt : hdr.length + used done < len) (h : m.length = len - (hdr.length + used done)) :
    ∃ st', appendUl st false m = .ok (st', m.drop (len - (hdr.length + used done) - 1), .needMoreBlocks) ∧
      st'.buf = render len hdr done (.li0 (m.take (len - (hdr.length + used done) - 1))) ∧ st'.e = false := by
  have hsp : st.buf.length - st.offset = len - (hdr.length + used done) := by rw [i.len_eq, i.off]
  obtain ⟨b1, b2, e1, e2, e3, e4⟩ := insert_li i hlt (UInt8.ofNat (0 * 4 + 0 * 2 + 1))
  unfold appendUl
  simp only [hsp, h]
  rw [if_neg (by omega), if_neg (by simp), e1]
  simp only [Res.bind_ok]
  rw [e2]
  simp only [Res.bind_ok]
  rw [e3]
  simp only [Res.bind_ok, if_true]
  rw [e4]
  simp only [Res.bind_ok]
  have e5 : st.offset + 1 = (lisEnd 2 done).length + 1 + (hdr ++ done.flatten).length := by
    rw [i.off]; simp [used]; omega
  rw [e5, copy_tail _ _ _ _ _ (by simp; omega)]
  simp only [Res.bind_ok]
  refine ⟨_, rfl, ?_, rfl⟩
  simp only [render, liOct]
  rw [List.drop_eq_nil_of_le (by simp; omega)]
  simp

theorem appendUl_less {len hdr done st} (i : EncInv len hdr done st) (isFinal : Bool) (m : Octets) (h64 : m.length < 64)
    (h : m.length < len - (hdr.length + used done)) :
    ∃ st', appendUl st isFinal m = .ok (st', [], if len - (hdr.length + used done) - 1 - m.length > 0
        then .completedSpaceLeft else .completedBlockFilled) ∧
      EncInv len hdr (done ++ [m]) st' := by
  have hsp : st.buf.length - st.offset = len - (hdr.length + used done) := by rw [i.len_eq, i.off]
  obtain ⟨b1, b2, e1, e2, e3, e4⟩ := insert_li i (by omega) (UInt8.ofNat (m.length % 64 * 4 + 0 * 2 + 1))
  unfold appendUl
  simp only [hsp]
  rw [if_neg (by omega), if_neg (by omega), e1]
  simp only [Res.bind_ok]
  rw [e2]
  simp only [Res.bind_ok]
  rw [e3]
  simp only [Res.bind_ok]
  rw [if_neg (by omega), e4]
  simp only [Res.bind_ok]
  have e5 : st.offset + 1 = (lisEnd 2 done).length + 1 + (hdr ++ done.flatten).length := by
    rw [i.off]; simp [used]; omega
  rw [e5, copy_tail _ _ _ _ _ (by simp; omega)]
  simp only [Res.bind_ok]
  refine ⟨_, rfl, ?_⟩
  refine ⟨by simp [i.nc], ?_, ?_, ?_, ?_, by simp⟩
  · simp [used]; omega
  · rw [used_snoc]; omega
  · intro d hd
    rcases List.mem_append.1 hd with hd | hd
    · exact i.small d hd
    · simp at hd; rw [hd]; exact h64
  · have hl2 : lisEnd 2 done = done.map fun x => liOct x.length 2 := by
      rcases snoc_cases done with h | ⟨ds, d, h⟩ <;> subst h <;> simp
    rw [lisEnd_snoc, hl2]
    have hm : m.length % 64 * 4 + 0 * 2 + 1 = m.length * 4 + 1 := by omega
    have hd : (List.replicate (len - (hdr.length + used done) - 1) (0x2b : UInt8)).drop m.length =
        List.replicate (len - (hdr.length + used (done ++ [m]))) 0x2b := by
      rw [List.drop_replicate, used_snoc]
      congr 1
      omega
    rw [hd, hm]
    simp [liOct]

/-- The encoder of the model produces exactly what `clean` describes. -/
theorem fillLoop_clean (isFinal : Bool) (len : Nat) (hdr : Octets) : ∀ (q done : List Octets) (st : EncSt),
    EncInv len hdr done st → hdr.length + used done < len → len < 64 → (∀ m ∈ q, m ≠ []) →
    (q ≠ [] ∨ done ≠ []) →
    ∃ st', fillLoop isFinal st q = .ok (st', (clean isFinal (len - (hdr.length + used done)) done q).2.2) ∧
      st'.buf = render len hdr (clean isFinal (len - (hdr.length + used done)) done q).1
        (clean isFinal (len - (hdr.length + used done)) done q).2.1 ∧
      st'.e = renderE (clean isFinal (len - (hdr.length + used done)) done q).1
        (clean isFinal (len - (hdr.length + used done)) done q).2.1 := by
  intro q
  induction q with
  | nil =>
    intro done st i hlt h64 _ hne
    have : done ≠ [] := by simpa using hne
    have hl : st.numChunks > 0 := by rw [i.nc]; exact List.length_pos_iff.2 this
    refine ⟨st, ?_, ?_, ?_⟩
    · simp only [fillLoop, clean, hl, if_true]
    · simp only [clean, render]; exact i.buf
    · simp only [clean, renderE]; exact i.e
  | cons m q ih =>
    intro done st i hlt h64 hq _
    have hm : m ≠ [] := hq m (by simp)
    have hm0 : m.length ≠ 0 := fun h => hm (List.length_eq_zero_iff.1 h)
    simp only [fillLoop, clean]
    rw [if_neg hm0]
    by_cases h1 : m.length > len - (hdr.length + used done)
    · obtain ⟨st', a, b, c⟩ := appendUl_open i isFinal m h1
      rw [a]
      simp only [h1, if_true, Res.bind_ok]
      exact ⟨st', rfl, b, c⟩
    · rw [if_neg h1]
      by_cases h2 : m.length = len - (hdr.length + used done)
      · rw [if_pos h2]
        cases isFinal with
        | true =>
          obtain ⟨st', a, b, c⟩ := appendUl_exact i m h2
          rw [a]
          simp only [if_true, Res.bind_ok]
          exact ⟨st', rfl, b, c⟩
        | false =>
          obtain ⟨st', a, b, c⟩ := appendUl_li0 i m hlt h2
          rw [a]
          simp only [Bool.false_eq_true, if_false, Res.bind_ok]
          exact ⟨st', rfl, b, c⟩
      · rw [if_neg h2]
        obtain ⟨st', a, b⟩ := appendUl_less i isFinal m (by omega) (by omega)
        rw [a]
        simp only [Res.bind_ok]
        by_cases h3 : m.length + 1 = len - (hdr.length + used done)
        · rw [if_pos h3, if_neg (by omega)]
          simp only
          exact ⟨st', rfl, b.buf, b.e⟩
        · rw [if_neg h3, if_pos (by omega)]
          simp only
          have hu := used_snoc done m
          obtain ⟨st2, c1, c2, c3⟩ := ih (done ++ [m]) st' b (by omega) h64
            (fun x hx => hq x (by simp [hx])) (by simp)
          have he : len - (hdr.length + used done) - 1 - m.length = len - (hdr.length + used (done ++ [m])) := by
            omega
          rw [he]
          exact ⟨st2, c1, c2, c3⟩

end Verif.Rlc
