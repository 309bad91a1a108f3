import Verif.Rlc.EncLemmas

/-!
# Lemmas: what the specified receiver reads from the blocks of the encoder (proof devices)
-/
namespace Verif.Rlc

open Verif.Spec

theorem readLis_mid (l : Nat) (rest : Octets) (h1 : 1 ≤ l) (h2 : l < 64) :
    readLis (liOct l 2 :: rest) = (readLis rest).map fun r => (l :: r.1, r.2.1, r.2.2) := by
  have e : (liOct l 2).toNat = l * 4 + 2 := by simp [liOct]; omega
  simp only [readLis, e]
  rw [if_neg (by omega), if_neg (by omega), if_pos (by omega)]
  have : (l * 4 + 2) / 4 = l := by omega
  rw [this]

theorem readLis_end (l b : Nat) (rest : Octets) (h1 : 1 ≤ l) (h2 : l < 64) (hb : b = 1 ∨ b = 3) :
    readLis (liOct l b :: rest) = some ([l], decide (b = 3), rest) := by
  have e : (liOct l b).toNat = l * 4 + b := by simp [liOct]; omega
  simp only [readLis, e]
  rw [if_neg (by omega), if_neg (by omega), if_neg (by omega)]
  have : (l * 4 + b) / 4 = l := by omega
  rw [this]
  simp only [Option.some.injEq, Prod.mk.injEq, true_and, and_true]
  rcases hb with rfl | rfl
  · have : (l * 4 + 1) / 2 % 2 = 0 := by omega
    rw [this]; rfl
  · have : (l * 4 + 3) / 2 % 2 = 1 := by omega
    rw [this]; rfl

theorem readLis_zero (rest : Octets) : readLis (liOct 0 1 :: rest) = some ([], true, rest) := by
  simp [readLis, liOct]

theorem readLis_mids (ds : List Octets) (rest : Octets) (h : ∀ d ∈ ds, d ≠ [] ∧ d.length < 64) :
    readLis ((ds.map fun x => liOct x.length 2) ++ rest) =
      (readLis rest).map fun r => (ds.map List.length ++ r.1, r.2.1, r.2.2) := by
  induction ds with
  | nil => simp
  | cons d ds ih =>
    have hd := h d (by simp)
    have h1 : 1 ≤ d.length := by
      rcases d with _ | ⟨x, d⟩
      · exact absurd rfl hd.1
      · simp
    simp only [List.map_cons, List.cons_append]
    rw [readLis_mid _ _ h1 hd.2, ih fun x hx => h x (by simp [hx])]
    simp [Function.comp_def]

theorem cut_done (isLast more : Bool) (t : Octets) : ∀ ds : List Octets,
    cut isLast more (ds.map List.length) (ds.flatten ++ t) =
      some (ds.map (fun d => (d, true)) ++ if more ∧ t ≠ [] then [(t, isLast)] else []) := by
  intro ds
  induction ds with
  | nil => simp [cut]
  | cons d ds ih =>
    simp only [List.map_cons, List.flatten_cons, List.append_assoc, cut]
    rw [if_pos (by simp)]
    rw [List.drop_left, List.take_left, ih]
    simp

theorem readLis_lisEnd {ds : List Octets} (hne : ds ≠ []) (b : Nat) (hb : b = 1 ∨ b = 3) (rest : Octets)
    (h : ∀ d ∈ ds, d ≠ [] ∧ d.length < 64) :
    readLis (lisEnd b ds ++ rest) = some (ds.map List.length, decide (b = 3), rest) := by
  rcases snoc_cases ds with e | ⟨es, d, e⟩
  · exact absurd e hne
  · subst e
    have hd := h d (by simp)
    have h1 : 1 ≤ d.length := by
      rcases d with _ | ⟨x, d⟩
      · exact absurd rfl hd.1
      · simp
    rw [lisEnd_snoc, List.append_assoc, List.singleton_append,
      readLis_mids es _ fun x hx => h x (by simp [hx]), readLis_end _ _ _ h1 hd.2 hb]
    simp

/-- Pieces carried by a block that ends with `t`. -/
def tailPieces (isLast : Bool) (done : List Octets) : Tail → List Piece
  | .pad => []
  | .opn t => if t ≠ [] then [(t, isLast)] else []
  | .li0 t => if t ≠ [] then [(t, isLast)] else []
  | .exact t => if done = [] ∧ t ≠ [] then [(t, isLast)] else []

theorem pieces_render (len : Nat) (hdr : Octets) (tlli isLast : Bool) (done : List Octets) (tail : Tail)
    (hh : hdr.length = if tlli then 4 else 0) (h : ∀ d ∈ done, d ≠ [] ∧ d.length < 64)
    (hp : tail = .pad → done ≠ []) :
    pieces tlli (renderE done tail) isLast (render len hdr done tail) =
      some (done.map (fun d => (d, true)) ++ tailPieces isLast done tail) := by
  have hdrop : ∀ X : Octets, (hdr ++ X).drop (if tlli then 4 else 0) = X := by
    intro X; rw [← hh, List.drop_left]
  have hl2 : lisEnd 2 done = done.map fun x => liOct x.length 2 := by
    rcases snoc_cases done with h | ⟨ds, d, h⟩ <;> subst h <;> simp
  cases tail with
  | pad =>
    have hd := hp rfl
    have he : renderE done .pad = false := by simp [renderE, hd]
    simp only [pieces, he, render, List.append_assoc]
    rw [readLis_lisEnd hd 1 (Or.inl rfl) _ h]
    simp only [Bool.false_eq_true, if_false, Option.bind_some]
    rw [hdrop, cut_done]
    simp [tailPieces]
  | opn t =>
    by_cases hd : done = []
    · subst hd
      simp only [pieces, renderE, List.isEmpty_nil, render, lisEnd_nil, List.nil_append, List.flatten_nil,
        List.append_nil, if_true]
      rw [hdrop]
      simp [cut, tailPieces]
    · have he : renderE done (.opn t) = false := by simp [renderE, hd]
      simp only [pieces, he, render, List.append_assoc]
      rw [readLis_lisEnd hd 3 (Or.inr rfl) _ h]
      simp only [Bool.false_eq_true, if_false, Option.bind_some]
      rw [hdrop, cut_done]
      simp [tailPieces]
  | li0 t =>
    simp only [pieces, renderE, render, List.append_assoc, hl2]
    rw [readLis_mids done _ h, readLis_zero]
    simp only [Bool.false_eq_true, if_false, Option.bind_some, Option.map_some]
    rw [hdrop, List.append_nil, cut_done]
    simp [tailPieces]
  | exact t =>
    by_cases hd : done = []
    · subst hd
      simp only [pieces, renderE, List.isEmpty_nil, render, lisEnd_nil, List.nil_append, List.flatten_nil,
        List.append_nil, if_true]
      rw [hdrop]
      simp [cut, tailPieces]
    · have he : renderE done (.exact t) = false := by simp [renderE, hd]
      simp only [pieces, he, render, List.append_assoc]
      rw [readLis_lisEnd hd 1 (Or.inl rfl) _ h]
      simp only [Bool.false_eq_true, if_false, Option.bind_some]
      rw [hdrop, cut_done]
      simp [tailPieces, hd]

/-! ## Reassembly -/

/-- Put the data of an unfinished PDU in front of the first one. -/
def glue (p : Octets) : List Octets → List Octets
  | [] => []
  | f :: fs => (p ++ f) :: fs

@[simp] theorem glue_nil_left (l : List Octets) : glue [] l = l := by cases l <;> rfl

theorem reassemble_append (s2 : List Piece) : ∀ (s1 : List Piece) (p : Octets),
    reassemble p (s1 ++ s2) = ((reassemble p s1).1 ++ (reassemble (reassemble p s1).2 s2).1,
      (reassemble (reassemble p s1).2 s2).2) := by
  intro s1
  induction s1 with
  | nil => intro p; simp [reassemble]
  | cons x s1 ih =>
    intro p
    obtain ⟨x, b⟩ := x
    cases b with
    | true => simp only [List.cons_append, reassemble, ih]
    | false => simp only [List.cons_append, reassemble, ih]

theorem reassemble_done : ∀ (ds : List Octets) (p : Octets),
    reassemble p (ds.map fun d => (d, true)) = (glue p ds, if ds = [] then p else []) := by
  intro ds
  induction ds with
  | nil => intro p; simp [reassemble, glue]
  | cons d ds ih =>
    intro p
    simp only [List.map_cons, reassemble, ih, glue_nil_left]
    simp [glue]

/-! ## What `clean` does with the queue -/

/-- The LLC data a block takes is the front of the queue. -/
theorem clean_spec (isFinal : Bool) : ∀ (q : List Octets) (space : Nat) (done : List Octets),
    space < 64 → 0 < space → (∀ m ∈ q, m ≠ []) →
    ∃ ds, (clean isFinal space done q).1 = done ++ ds ∧ (∀ d ∈ ds, d ∈ q ∧ d.length < 64) ∧
      ((clean isFinal space done q).2.1 = .pad → q ≠ [] → ds ≠ []) ∧
      (∀ m ∈ (clean isFinal space done q).2.2, m ≠ []) ∧
      (match (clean isFinal space done q).2.1 with
        | .pad => q = ds ++ (clean isFinal space done q).2.2 ∧
            ((clean isFinal space done q).2.2 = [] → used ds ≤ space)
        | .opn t => t ≠ [] ∧ ∃ r tl, (clean isFinal space done q).2.2 = r :: tl ∧ q = ds ++ (t ++ r) :: tl
        | .li0 t => isFinal = false ∧ ∃ r tl, (clean isFinal space done q).2.2 = r :: tl ∧ q = ds ++ (t ++ r) :: tl
        | .exact t => isFinal = true ∧ t ≠ [] ∧ q = ds ++ t :: (clean isFinal space done q).2.2 ∧
            used ds + t.length = space) := by
  intro q
  induction q with
  | nil =>
    intro space done _ _ _
    exact ⟨[], by simp [clean], by simp, by simp, by simp [clean], by simp [clean, used]⟩
  | cons m q ih =>
    intro space done hs h0 hq
    have hm : m ≠ [] := hq m (by simp)
    have hm1 : 1 ≤ m.length := by
      rcases m with _ | ⟨x, m⟩
      · exact absurd rfl hm
      · simp
    have hq' : ∀ x ∈ q, x ≠ [] := fun x hx => hq x (by simp [hx])
    simp only [clean]
    by_cases h1 : m.length > space
    · simp only [h1, if_true]
      refine ⟨[], by simp, by simp, by simp, ?_, ?_, m.drop space, q, rfl, by simp⟩
      · intro x hx
        rcases List.mem_cons.1 hx with hx | hx
        · rw [hx]; intro e
          have := congrArg List.length e
          simp at this; omega
        · exact hq' x hx
      · intro e
        have := congrArg List.length e
        rw [List.length_take, List.length_nil] at this
        omega
    · rw [if_neg h1]
      by_cases h2 : m.length = space
      · rw [if_pos h2]
        cases isFinal with
        | true =>
          simp only [if_true]
          exact ⟨[], by simp, by simp, by simp, hq', trivial, hm, by simp, by simp [used, h2]⟩
        | false =>
          simp only [Bool.false_eq_true, if_false]
          refine ⟨[], by simp, by simp, by simp, ?_, trivial, m.drop (space - 1), q, rfl, by simp⟩
          intro x hx
          rcases List.mem_cons.1 hx with hx | hx
          · rw [hx]; intro e
            have := congrArg List.length e
            simp at this; omega
          · exact hq' x hx
      · rw [if_neg h2]
        by_cases h3 : m.length + 1 = space
        · simp only [h3, if_true]
          refine ⟨[m], by simp, ?_, by simp, hq', by simp, ?_⟩
          · intro d hd; simp at hd; rw [hd]; exact ⟨by simp, by omega⟩
          · intro _; simp [used]; omega
        · simp only [h3, if_false]
          obtain ⟨ds, a, b, c, d, e⟩ := ih (space - 1 - m.length) (done ++ [m]) (by omega) (by omega) hq'
          have hu : used (m :: ds) = 1 + m.length + used ds := by simp [used]; omega
          refine ⟨m :: ds, by rw [a]; simp, ?_, by simp, d, ?_⟩
          · intro x hx
            rcases List.mem_cons.1 hx with hx | hx
            · rw [hx]; exact ⟨by simp, by omega⟩
            · exact ⟨by simp [(b x hx).1], (b x hx).2⟩
          · revert e
            generalize clean isFinal (space - 1 - m.length) (done ++ [m]) q = z
            obtain ⟨z1, z2, z3⟩ := z
            cases z2 with
            | pad =>
              rintro ⟨e1, e2⟩
              exact ⟨by simpa using e1, fun h => by have := e2 h; omega⟩
            | opn t =>
              rintro ⟨e1, r, tl, e2, e3⟩
              exact ⟨e1, r, tl, e2, by simp [e3]⟩
            | li0 t =>
              rintro ⟨e1, r, tl, e2, e3⟩
              exact ⟨e1, r, tl, e2, by simp [e3]⟩
            | exact t =>
              rintro ⟨e1, e2, e3, e4⟩
              refine ⟨e1, e2, by simpa using e3, ?_⟩
              omega

/-! ## One block -/

/-- Octets taken by the TLLI. -/
def hdrLen (tlli : Option Nat) : Nat := if tlli.isSome then 4 else 0

def hdrOf (tlli : Option Nat) : Octets := match tlli with | some t => tlliOctets t | none => []

theorem hdrOf_length (tlli : Option Nat) : (hdrOf tlli).length = hdrLen tlli := by cases tlli <;> rfl

theorem createBlock_clean (len cv : Nat) (tlli : Option Nat) (q : List Octets) (h1 : hdrLen tlli < len) (h2 : len < 64)
    (hq : q ≠ []) (hne : ∀ m ∈ q, m ≠ []) :
    createBlock len cv tlli q = .ok
      ({ ti := tlli.isSome
         e := renderE (clean (cv = 0) (len - hdrLen tlli) [] q).1 (clean (cv = 0) (len - hdrLen tlli) [] q).2.1
         cv := cv
         data := render len (hdrOf tlli) (clean (cv = 0) (len - hdrLen tlli) [] q).1
           (clean (cv = 0) (len - hdrLen tlli) [] q).2.1 },
       (clean (cv = 0) (len - hdrLen tlli) [] q).2.2) := by
  have key : ∀ st : EncSt, st.numChunks = 0 → st.offset = hdrLen tlli → st.e = true →
      st.buf = hdrOf tlli ++ List.replicate (len - hdrLen tlli) 0x2b →
      ∃ st', fillLoop (cv = 0) st q = .ok (st', (clean (cv = 0) (len - hdrLen tlli) [] q).2.2) ∧
        st'.buf = render len (hdrOf tlli) (clean (cv = 0) (len - hdrLen tlli) [] q).1
          (clean (cv = 0) (len - hdrLen tlli) [] q).2.1 ∧
        st'.e = renderE (clean (cv = 0) (len - hdrLen tlli) [] q).1 (clean (cv = 0) (len - hdrLen tlli) [] q).2.1 := by
    intro st a b c d
    have := fillLoop_clean (decide (cv = 0)) len (hdrOf tlli) q [] st
      ⟨by simp [a], by simp [b, hdrOf_length, used], by simp [hdrOf_length, used]; omega, by simp,
        by simp [d, hdrOf_length, used], by simp [c]⟩
      (by simp [hdrOf_length, used]; exact h1) h2 hne (Or.inl hq)
    simpa [hdrOf_length, used] using this
  unfold createBlock
  rw [if_neg hq]
  cases tlli with
  | none =>
    obtain ⟨st', a, b, c⟩ := key { buf := List.replicate len (0x2b : UInt8), offset := 0, numChunks := 0, e := true }
      rfl rfl rfl (by simp [hdrOf, hdrLen])
    simp only [Res.bind_ok]
    rw [a]
    simp only [Res.bind_ok]
    rw [b, c]
  | some t =>
    have hlen : 4 < len := h1
    have hc : copyTo (List.replicate len (0x2b : UInt8)) 0 (tlliOctets t) =
        .ok (tlliOctets t ++ List.replicate (len - 4) 0x2b) := by
      have e : List.replicate len (0x2b : UInt8) = [] ++ (List.replicate 4 0x2b ++ List.replicate (len - 4) 0x2b) := by
        rw [List.nil_append, List.replicate_append_replicate]
        congr 1
        omega
      rw [e]
      exact copyTo_append [] _ _ _ (by simp [tlliOctets])
    obtain ⟨st', a, b, c⟩ := key { buf := tlliOctets t ++ List.replicate (len - 4) (0x2b : UInt8), offset := 4,
                                   numChunks := 0, e := true } rfl rfl rfl (by simp [hdrOf, hdrLen])
    simp only [hc, Res.bind_ok]
    rw [a]
    simp only [Res.bind_ok]
    rw [b, c]

end Verif.Rlc
