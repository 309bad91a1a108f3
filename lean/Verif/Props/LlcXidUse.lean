import Verif.Props.LlcXidExchange
import Verif.Spec.LlcXidUse

/-!
# C179 and C180: what becomes of the XID frames of the peer
-/
namespace Verif.Props

open Verif.Llc Verif.Spec

/-- The entity takes the frame `d`, decoded to `p`, for an XID frame with the parameters `fs`; a command or a
response. -/
structure XidFrame (loc : Location) (d : Octets) (p : Decoded) (cmd : Bool) (fs : List XidField) : Prop where
  clear : p.flags.encMode = false
  fcs : fcsOk p d = true
  func : p.func = .XID
  cr : receivedCrIsCmd loc p.flags.cmdRsp = cmd
  wf : ∀ f ∈ fs, XidWellFormed f
  few : fs.length ≤ 16
  small : (fs.map xidWireSize).sum ≤ 1024
  octets : xidEncode 1024 fs = .ok (p.payload d)

theorem xidFrame_decode {loc d p cmd fs} (h : XidFrame loc d p cmd fs) : xidDecode 16 (p.payload d) = .ok fs := by
  obtain ⟨w, h1, _, h3⟩ := c07_xid_roundtrip 1024 16 fs h.wf h.few h.small
  rw [h.octets] at h1
  injection h1 with h1
  rw [h1]
  exact h3

theorem find_last {α : Type} {q : α → Bool} : ∀ {l : List α}, (l.filter q).length ≤ 1 → (l.filter q).getLast? = l.find? q
  | [], _ => rfl
  | a :: l, h => by
    by_cases ha : q a = true
    · rw [List.filter_cons_of_pos ha] at h ⊢
      rw [List.find?_cons_of_pos ha]
      have : l.filter q = [] := List.eq_nil_of_length_eq_zero (by simpa using h)
      rw [this]; rfl
    · rw [List.filter_cons_of_neg ha] at h ⊢
      rw [List.find?_cons_of_neg ha]
      exact find_last h

theorem once_filter {fs : List XidField} (h : XidOnce fs) (t : Nat) : (fs.filter fun f => f.type == t).length ≤ 1 := by
  unfold XidOnce at h
  induction fs with
  | nil => simp
  | cons f fs ih =>
    rw [List.map_cons, List.nodup_cons] at h
    by_cases hf : f.type = t
    · rw [List.filter_cons_of_pos (by simp [hf])]
      have : fs.filter (fun f => f.type == t) = [] := by
        rw [List.filter_eq_nil_iff]
        intro g hg
        simp only [beq_iff_eq]
        intro hgt
        exact h.1 (List.mem_map.2 ⟨g, hg, by rw [hgt, hf]⟩)
      rw [this]; simp
    · rw [List.filter_cons_of_neg (by simp [hf])]
      exact ih h.2

theorem lastL3_eq {fs : List XidField} (h : XidOnce fs) : lastL3 fs = xidL3 fs := by
  unfold lastL3 xidL3
  rw [find_last (once_filter h 11)]

/-- The parameters and the mark after the loop. -/
theorem fold_ind {fs : List XidField} : ∀ (s : Params × Bool), XidOnce fs → (∀ f ∈ fs, XidWellFormed f) →
    let r := fs.foldl xidIndField s
    r.1.n201u = (xidValue 5 fs).getD s.1.n201u ∧ r.1.n201i = (xidValue 6 fs).getD s.1.n201i ∧
    (r.2 = true ↔ s.2 = true ∨ (xidValue 5 fs).getD s.1.n201u ≠ s.1.n201u ∨ (xidValue 6 fs).getD s.1.n201i ≠ s.1.n201i) ∧
    r.1 = { s.1 with n201u := r.1.n201u, n201i := r.1.n201i } := by
  induction fs with
  | nil => intro s _ _; simp [xidValue]
  | cons f fs ih =>
    intro s h hw
    have hn : XidOnce fs := by
      unfold XidOnce at h ⊢
      rw [List.map_cons, List.nodup_cons] at h
      exact h.2
    have hno : ∀ t, f.type = t → xidValue t fs = none := by
      intro t ht
      unfold XidOnce at h
      rw [List.map_cons, List.nodup_cons] at h
      unfold xidValue
      rw [List.find?_eq_none.2, Option.map_none]
      intro g hg
      simp only [beq_iff_eq]
      intro hgt
      exact h.1 (List.mem_map.2 ⟨g, hg, by rw [hgt, ht]⟩)
    have hcons : ∀ t, xidValue t (f :: fs) = if f.type = t then some f.val else xidValue t fs := by
      intro t
      unfold xidValue
      by_cases ht : f.type = t
      · rw [List.find?_cons_of_pos (by simp [ht]), if_pos ht]; rfl
      · rw [List.find?_cons_of_neg (by simp [ht]), if_neg ht]
    have := ih (xidIndField s f) hn (fun g hg => hw g (List.mem_cons_of_mem _ hg))
    rw [List.foldl_cons]
    have hf := hw f (List.mem_cons_self ..)
    dsimp only at this ⊢
    obtain ⟨a, b, c, e⟩ := this
    by_cases h5 : f.type = 5
    · have hl : f.val % 2 ^ 16 = f.val := by
        rcases hf with ⟨h11, _⟩ | ⟨hl, _⟩
        · omega
        · rw [h5] at hl
          simp [XidLegal] at hl
          omega
      rw [hno 5 h5] at a c
      rw [hcons 5, hcons 6, if_pos h5, if_neg (by omega)]
      unfold xidIndField at a b c e ⊢
      rw [if_pos h5] at a b c e ⊢
      by_cases hv : s.1.n201u = f.val
      · rw [if_neg (by simpa using hv)] at a b c e ⊢
        refine ⟨by simpa [hv] using a, b, by simpa [hv] using c, e⟩
      · rw [if_pos hv] at a b c e ⊢
        simp only [hl] at a b c e ⊢
        refine ⟨by simpa using a, by simpa using b, ?_, e⟩
        rw [c]
        simp
        omega
    · by_cases h6 : f.type = 6
      · have hl : f.val % 2 ^ 16 = f.val := by
          rcases hf with ⟨h11, _⟩ | ⟨hl, _⟩
          · omega
          · rw [h6] at hl
            simp [XidLegal] at hl
            omega
        rw [hno 6 h6] at b c
        rw [hcons 5, hcons 6, if_neg h5, if_pos h6]
        unfold xidIndField at a b c e ⊢
        rw [if_neg h5, if_pos h6] at a b c e ⊢
        by_cases hv : s.1.n201i = f.val
        · rw [if_neg (by simpa using hv)] at a b c e ⊢
          refine ⟨a, by simpa [hv] using b, by simpa [hv] using c, e⟩
        · rw [if_pos hv] at a b c e ⊢
          simp only [hl] at a b c e ⊢
          refine ⟨by simpa using a, by simpa using b, ?_, e⟩
          rw [c]
          simp
          omega
      · rw [hcons 5, hcons 6, if_neg h5, if_neg h6]
        unfold xidIndField at a b c e ⊢
        rw [if_neg h5, if_neg h6] at a b c e ⊢
        exact ⟨a, b, c, e⟩

/-- The XID response of the peer at `loc` with the parameters `w`. -/
def xidResponse (loc : Location) (sapi : Nat) (w : Octets) (pdu : Octets) : Prop :=
  ∃ fcs : Octets, fcs.length = 3 ∧
    pdu = UInt8.ofNat (if loc = .sgsn then sapi + 0x40 else sapi) :: 0xfb :: w ++ fcs

theorem encode_xid (loc : Location) (c : Bool) {sapi : Nat} (hs : sapi < 16) (w : Octets) :
    ∃ pdu, encode { sapi, fmt := .U, func := .XID
                    flags := { follFin := true, cmdRsp := encodeCr loc c }, data := w } = .ok pdu ∧
      xidResponse loc sapi w pdu := by
  have key : ∀ s, s < 16 → ∀ b : Bool, UInt8.ofNat ((s &&& 0x0f) ||| bit b 6) = UInt8.ofNat (if b then s + 0x40 else s) := by
    decide +kernel
  have ha : encAddr ({ sapi, fmt := .U, func := .XID
                       flags := { follFin := true, cmdRsp := encodeCr loc c }, data := w } : Pdu) =
      UInt8.ofNat (if loc = .sgsn then sapi + 0x40 else sapi) := by
    have := key sapi hs (encodeCr loc c)
    unfold encAddr
    cases loc <;> simpa [encodeCr] using this
  unfold xidResponse
  rw [← ha]
  refine ⟨_, rfl, fcsOctets (fcs (encCover false
      (encAddr ({ sapi, fmt := .U, func := .XID, flags := { follFin := true, cmdRsp := encodeCr loc c }, data := w } : Pdu) ::
      0xfb :: w))),
    rfl, ?_⟩
  have : UInt8.ofNat (224 ||| bit true 4 ||| 11) = 0xfb := rfl
  simp only [this]
  rfl

/-! ## C179 -/

theorem replaceL3_none (l3 : Octets) {fs : List XidField} (h : xidL3 fs = none) : replaceL3 l3 fs = fs := by
  induction fs with
  | nil => rfl
  | cons f fs ih =>
    unfold xidL3 at h
    by_cases hf : f.type = 11
    · rw [List.find?_cons_of_pos (by simp [hf])] at h; cases h
    · rw [List.find?_cons_of_neg (by simp [hf])] at h
      unfold replaceL3
      rw [if_neg hf, ih h]

/-- The parameters with the answer of the user for those of Layer 3. -/
def answered (l3 : Octets) (fs : List XidField) : List XidField :=
  fs.map fun f => if f.type = 11 then { f with var := l3 } else f

theorem replaceL3_answered {l3 : Octets} (hl : l3.length < 256) {fs : List XidField} (h : XidOnce fs) :
    replaceL3 l3 fs = answered l3 fs := by
  induction fs with
  | nil => rfl
  | cons f fs ih =>
    unfold XidOnce at h
    rw [List.map_cons, List.nodup_cons] at h
    unfold replaceL3
    by_cases hf : f.type = 11
    · rw [if_pos hf, Nat.mod_eq_of_lt hl, List.take_length]
      have : answered l3 fs = fs := by
        unfold answered
        rw [List.map_congr_left, List.map_id]
        intro g hg
        rw [if_neg]
        · rfl
        · intro hgt
          exact h.1 (List.mem_map.2 ⟨g, hg, by rw [hgt, hf]⟩)
      conv_rhs => rw [answered, List.map_cons, if_pos hf]
      rw [show List.map _ fs = answered l3 fs from rfl, this]
    · rw [if_neg hf, ih h.2]
      conv_rhs => rw [answered, List.map_cons, if_neg hf]
      rfl

/-- **C179** Every XID command of the peer takes effect and is reported: the sizes it gives are adopted, nothing else
is changed; the user gets one LL-XID.ind with the Layer-3 parameters and the sizes in use now if there are Layer-3
parameters or a size changed, and else none; without Layer-3 parameters an XID response with the same octets is sent
at once, and with them nothing. -/
theorem c179 (loc : Location) (tlli : Nat) (l : Lle) (d : Octets) (p : Decoded) (fs : List XidField)
    (h : XidFrame loc d p true fs) (once : XidOnce fs) (hs : l.sapi < 16) :
    let r := l.rx loc tlli d p
    let u := (xidValue 5 fs).getD l.params.n201u
    let i := (xidValue 6 fs).getD l.params.n201i
    r.rc = .ok () ∧ r.lle.params = { l.params with n201u := u, n201i := i } ∧
    r.out.filter isXidInd = (if (xidL3 fs).isSome ∨ u ≠ l.params.n201u ∨ i ≠ l.params.n201i
      then [.xidInd tlli l.sapi (xidL3 fs) u i] else []) ∧
    ((xidL3 fs).isSome → framesDown r.out = []) ∧
    (xidL3 fs = none → ∃ pdu, framesDown r.out = [pdu] ∧ xidResponse loc l.sapi (p.payload d) pdu) := by
  have hd := xidFrame_decode h
  obtain ⟨a, b, c, e⟩ := fold_ind (l.params, false) once h.wf
  dsimp only at a b c e
  unfold Lle.rx
  rw [h.clear, h.fcs, h.func]
  simp only [Bool.false_eq_true, if_false, Bool.not_true, h.cr, if_true]
  unfold Lle.processXidInd
  rw [hd]
  simp only [lastL3_eq once]
  cases h3 : xidL3 fs with
  | some o =>
    simp only [Option.isSome_some, if_true, Bool.or_true, true_or, reduceCtorEq, false_implies, and_true, true_and]
    refine ⟨by rw [e, a, b], ?_, fun _ => by simp [framesDown]⟩
    rw [a, b]
    simp [isXidInd]
  | none =>
    simp only [Option.isSome_none, Bool.false_eq_true, if_false, Bool.or_false, false_or, false_implies, true_and, true_implies]
    obtain ⟨pdu, he, hp⟩ := encode_xid loc false hs (p.payload d)
    unfold Lle.txXidResp
    simp only [replaceL3_none [] h3, h.octets]
    unfold Lle.txXid txFrame
    simp only [he]
    refine ⟨trivial, by rw [e, a, b], ?_, pdu, ?_, hp⟩
    · rw [a, b]
      simp only [Bool.false_eq_true, false_or] at c
      by_cases hc : (fs.foldl xidIndField (l.params, false)).2 = true
      · rw [if_pos hc, if_pos (c.1 hc)]; rfl
      · rw [if_neg hc, if_neg (fun x => hc (c.2 x))]; simp [isXidInd]
    · split <;> simp [framesDown]

/-- C179: the answer of the user to the Layer-3 parameters goes out in place of them, with the other parameters as the
peer gave them. -/
theorem c179_answer (loc : Location) (tlli t' : Nat) (l : Lle) (d : Octets) (p : Decoded) (fs : List XidField)
    (h : XidFrame loc d p true fs) (once : XidOnce fs) (hs : l.sapi < 16) (h3 : (xidL3 fs).isSome) (l3 : Octets)
    (hl : l3.length < 256) (hsize : ((answered l3 fs).map xidWireSize).sum ≤ 1024) :
    ∃ w pdu, framesDown ((l.rx loc tlli d p).lle.txXidResp loc t' l3).out = [pdu] ∧ xidResponse loc l.sapi w pdu ∧
      xidDecode 16 w = .ok (answered l3 fs) := by
  have hd := xidFrame_decode h
  have hr : (l.rx loc tlli d p).lle.rxXid = fs ∧ (l.rx loc tlli d p).lle.sapi = l.sapi := by
    unfold Lle.rx
    rw [h.clear, h.fcs, h.func]
    simp only [Bool.false_eq_true, if_false, Bool.not_true, h.cr, if_true]
    unfold Lle.processXidInd
    rw [hd]
    simp only [lastL3_eq once, h3, if_true]
    exact ⟨trivial, trivial⟩
  have hwf : ∀ f ∈ answered l3 fs, XidWellFormed f := by
    intro f hf
    unfold answered at hf
    obtain ⟨g, hg, rfl⟩ := List.mem_map.1 hf
    have := h.wf g hg
    split
    · rename_i hg11
      rcases this with ⟨a, b⟩ | ⟨a, b⟩
      · refine .inl ?_
        simp_all
        omega
      · rw [hg11] at a
        simp [XidLegal] at a
    · exact this
  obtain ⟨w, hw, _, hw3⟩ := c07_xid_roundtrip 1024 16 (answered l3 fs) hwf
    (by unfold answered; rw [List.length_map]; exact h.few) hsize
  obtain ⟨pdu, he, hp⟩ := encode_xid loc false hs w
  refine ⟨w, pdu, ?_, hp, hw3⟩
  unfold Lle.txXidResp
  simp only [hr.1, replaceL3_answered hl once, hw]
  unfold Lle.txXid txFrame
  simp only [hr.2, he]
  rfl

/-- A command with N201-U of 200 and four octets of Layer-3 parameters, as the MS receives it. -/
theorem xidFrame_cmd : ∃ p, decode [67, 251, 22, 0, 200, 172, 16, 1, 2, 3, 4, 161, 128, 183] = .ok p ∧
    XidFrame .ms [67, 251, 22, 0, 200, 172, 16, 1, 2, 3, 4, 161, 128, 183] p true
      [{ type := 5, val := 200 }, { type := 11, var := [1, 2, 3, 4] }] := by
  refine ⟨_, rfl, by decide +kernel, by decide +kernel, by decide +kernel, by decide +kernel, ?_, by decide,
    by decide +kernel, by decide +kernel⟩
  intro f hf
  simp only [List.mem_cons, List.not_mem_nil, or_false] at hf
  rcases hf with rfl | rfl
  · exact .inr ⟨by simp [XidLegal], rfl⟩
  · exact .inl ⟨rfl, rfl, by simp⟩

/-- It is reported, sizes and all, and the user is to answer. -/
example : ∃ p, decode [67, 251, 22, 0, 200, 172, 16, 1, 2, 3, 4, 161, 128, 183] = .ok p ∧
    ((Lle.init 3).rx .ms 0xc0000001 [67, 251, 22, 0, 200, 172, 16, 1, 2, 3, 4, 161, 128, 183] p).out.filter isXidInd =
      [.xidInd 0xc0000001 3 (some [1, 2, 3, 4]) 200 1503] := by
  obtain ⟨p, hd, h⟩ := xidFrame_cmd
  exact ⟨p, hd, (c179 .ms 0xc0000001 (Lle.init 3) _ p _ h (by simp [XidOnce]) (by decide)).2.2.1⟩

/-- A response with N201-U of 200, as the MS receives it. -/
theorem xidFrame_rsp : ∃ p, decode [3, 251, 22, 0, 200, 50, 36, 39] = .ok p ∧
    XidFrame .ms [3, 251, 22, 0, 200, 50, 36, 39] p false [{ type := 5, val := 200 }] := by
  refine ⟨_, rfl, by decide +kernel, by decide +kernel, by decide +kernel, by decide +kernel, ?_, by decide,
    by decide +kernel, by decide +kernel⟩
  intro f hf
  simp only [List.mem_cons, List.not_mem_nil, or_false] at hf
  subst hf
  exact .inr ⟨by simp [XidLegal], rfl⟩

/-! ## C180 -/

/-- **C180, full statement**: after an XID frame of the peer, a command or the response to the last XID command, that
gives N201-U, no data of more octets than that go out in a UI frame. -/
def C180Statement : Prop :=
  ∀ (loc : Location) (tlli : Nat) (l : Lle) (d : Octets) (p : Decoded) (cmd : Bool) (fs : List XidField) (n : Nat),
    XidFrame loc d p cmd fs → XidOnce fs → l.sapi < 16 → xidValue 5 fs = some n →
    ∀ (t' prio : Nat) (data : Octets), n < data.length →
      framesDown ((l.rx loc tlli d p).lle.txUi loc t' prio data).out = []

theorem txUi_fits {loc : Location} {t' prio : Nat} {l : Lle} {data : Octets} (h : data.length ≤ l.params.n201u) :
    (l.txUi loc t' prio data).rc = .ok () ∧ (framesDown (l.txUi loc t' prio data).out).length = 1 := by
  unfold Lle.txUi
  rw [if_neg (by omega)]
  exact ⟨rfl, rfl⟩

/-- **C180 (part)**: it is so for commands; and what fits is sent.  Missing: responses (`c180_violated`). -/
theorem c180_partial (loc : Location) (tlli : Nat) (l : Lle) (d : Octets) (p : Decoded) (fs : List XidField) (n : Nat)
    (h : XidFrame loc d p true fs) (once : XidOnce fs) (hs : l.sapi < 16) (hn : xidValue 5 fs = some n)
    (t' prio : Nat) (data : Octets) :
    let r := (l.rx loc tlli d p).lle.txUi loc t' prio data
    (n < data.length → framesDown r.out = [] ∧ r.rc = .err .efbig) ∧
    (data.length ≤ n → r.rc = .ok () ∧ (framesDown r.out).length = 1) := by
  obtain ⟨_, hp, _⟩ := c179 loc tlli l d p fs h once hs
  have hu : (l.rx loc tlli d p).lle.params.n201u = n := by rw [hp, hn]; rfl
  refine ⟨fun hd => ?_, fun hd => txUi_fits (by rw [hu]; exact hd)⟩
  unfold Lle.txUi
  rw [hu, if_pos hd]
  exact ⟨rfl, rfl⟩

/-- The example above: then 201 octets are refused. -/
example : ∃ p, decode [67, 251, 22, 0, 200, 172, 16, 1, 2, 3, 4, 161, 128, 183] = .ok p ∧
    (((Lle.init 3).rx .ms 0xc0000001 [67, 251, 22, 0, 200, 172, 16, 1, 2, 3, 4, 161, 128, 183] p).lle.txUi .ms
      0xc0000001 4 (List.replicate 201 0)).rc = .err .efbig := by
  obtain ⟨p, hd, h⟩ := xidFrame_cmd
  exact ⟨p, hd, ((c180_partial .ms 0xc0000001 (Lle.init 3) _ p _ 200 h (by simp [XidOnce]) (by decide) rfl 0xc0000001 4
    (List.replicate 201 0)).1 (by rw [List.length_replicate]; decide)).2⟩

/-- **C180 is violated**: the values in a response are not looked at.  The user asked for the parameters to be agreed, the
peer answers with N201-U of 200, and 300 octets go out in one frame. -/
theorem c180_violated : ¬ C180Statement := by
  intro h
  obtain ⟨p, hd, hf⟩ := xidFrame_rsp
  have := h .ms 0xc0000001 ((Lle.init 3).txXidReq .ms 0xc0000001 none).lle _ p false _ 200 hf (by simp [XidOnce])
    (by decide +kernel) rfl 0xc0000001 4 (List.replicate 300 0)
    (by rw [List.length_replicate]; decide)
  have hn : (((Lle.init 3).txXidReq .ms 0xc0000001 none).lle.rx .ms 0xc0000001 [3, 251, 22, 0, 200, 50, 36, 39] p).lle.params.n201u
      = 500 := by
    have e : (match decode [3, 251, 22, 0, 200, 50, 36, 39] with
      | .ok p => (((Lle.init 3).txXidReq .ms 0xc0000001 none).lle.rx .ms 0xc0000001
          [3, 251, 22, 0, 200, 50, 36, 39] p).lle.params.n201u
      | _ => 0) = 500 := by decide +kernel
    rw [hd] at e
    exact e
  have h1 := (txUi_fits (loc := .ms) (t' := 0xc0000001) (prio := 4) (data := List.replicate 300 0)
    (l := (((Lle.init 3).txXidReq .ms 0xc0000001 none).lle.rx .ms 0xc0000001 [3, 251, 22, 0, 200, 50, 36, 39] p).lle)
    (by rw [hn, List.length_replicate]; decide)).2
  rw [this] at h1
  cases h1

end Verif.Props
