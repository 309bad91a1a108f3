import Verif.Spec.PrimOwn

/-!
# C141, C142: who frees a primitive
-/
namespace Verif.Props

open Verif Verif.Prim Verif.Spec

/-! ## C141: primitives handed to the library -/

/-- C141, full statement: whatever primitive is handed to whichever function, whatever the state, it is freed exactly
once and not touched after that (or the process has aborted). `rc` is what the handlers' inner functions return, which
is never 1 (that value would mean that the primitive was kept). -/
def C141Statement : Prop :=
  ∀ (e : Entry) (h : Hdr) (i : Inner), i.rc ≠ 1 → freedOnce (e.hand h i) ∨ aborted (e.hand h i)

/-- What is proved of every entry point. -/
def Owned (e : Entry) (h : Hdr) (i : Inner) : Prop :=
  (freedTwice e h → e.hand h i = .ub .doubleFree ∨ aborted (e.hand h i)) ∧
  (readAfterFree e h i.found → e.hand h i = .ub .useAfterFree ∨ aborted (e.hand h i)) ∧
  (notFreed e h → leaked (e.hand h i)) ∧
  (¬ freedTwice e h → ¬ readAfterFree e h i.found → ¬ notFreed e h →
    freedOnce (e.hand h i) ∨ aborted (e.hand h i))

set_option linter.unusedSimpArgs false
set_option linter.unusedVariables false

theorem own_llcUpperDown (sap typ : Nat) (op : Op) (found good ms : Bool) (rc : Int) (hrc : rc ≠ 1) :
    Owned .llcUpperDown ⟨sap, typ, op⟩ ⟨found, good, rc, ms⟩ := by
  refine ⟨?_, ?_, ?_, ?_⟩ <;>
    simp only [Entry.hand, freedTwice, readAfterFree, notFreed, sndcpTakes, false_implies, not_false_iff, true_implies,
      llcUpperDown, llgmmDown, llDown] <;>
    (repeat' split) <;>
    simp_all [endSaved, endIn, freeAtEnd, unsupported, Msg.freeIn, freedOnce, leaked, Msg.free, eNotSup, aborted,
      eOther] <;>
    (repeat' split) <;> simp_all [Msg.freeIn, Msg.free]

theorem own_llcLowerUp (sap typ : Nat) (op : Op) (found good ms : Bool) (rc : Int) (hrc : rc ≠ 1) :
    Owned .llcLowerUp ⟨sap, typ, op⟩ ⟨found, good, rc, ms⟩ := by
  refine ⟨?_, ?_, ?_, ?_⟩ <;>
    simp only [Entry.hand, freedTwice, readAfterFree, notFreed, sndcpTakes, false_implies, not_false_iff, true_implies,
      llcLowerUp, grrUp, bssgpUp] <;>
    (repeat' split) <;>
    simp_all [endSaved, endIn, freeAtEnd, unsupported, Msg.freeIn, freedOnce, leaked, Msg.free, eNotSup, aborted,
      eOther] <;>
    (repeat' split) <;> simp_all [Msg.freeIn, Msg.free]

theorem own_sndcpUpperDown (sap typ : Nat) (op : Op) (found good ms : Bool) (rc : Int) (hrc : rc ≠ 1) :
    Owned .sndcpUpperDown ⟨sap, typ, op⟩ ⟨found, good, rc, ms⟩ := by
  refine ⟨?_, ?_, ?_, ?_⟩ <;>
    simp only [Entry.hand, freedTwice, readAfterFree, notFreed, sndcpTakes, false_implies, not_false_iff, true_implies,
      sndcpUpperDown, snDown] <;>
    (repeat' split) <;>
    simp_all [endSaved, endIn, freeAtEnd, unsupported, Msg.freeIn, freedOnce, leaked, Msg.free, eNotSup, aborted,
      eOther] <;>
    (repeat' split) <;> simp_all [Msg.freeIn, Msg.free]

theorem own_sndcpLowerUp (sap typ : Nat) (op : Op) (found good ms : Bool) (rc : Int) (hrc : rc ≠ 1) :
    Owned .sndcpLowerUp ⟨sap, typ, op⟩ ⟨found, good, rc, ms⟩ := by
  refine ⟨?_, ?_, ?_, ?_⟩ <;>
    simp only [Entry.hand, freedTwice, readAfterFree, notFreed, sndcpTakes, false_implies, not_false_iff, true_implies,
      sndcpLowerUp, sndcpLl] <;>
    (repeat' split) <;>
    simp_all [endSaved, endIn, freeAtEnd, unsupported, Msg.freeIn, freedOnce, leaked, Msg.free, eNotSup, aborted,
      eOther] <;>
    (repeat' split) <;> simp_all [Msg.freeIn, Msg.free]

theorem own_sndcpSnsm (sap typ : Nat) (op : Op) (found good ms : Bool) (rc : Int) (hrc : rc ≠ 1) :
    Owned .sndcpSnsm ⟨sap, typ, op⟩ ⟨found, good, rc, ms⟩ := by
  refine ⟨?_, ?_, ?_, ?_⟩ <;>
    simp only [Entry.hand, freedTwice, readAfterFree, notFreed, sndcpTakes, false_implies, not_false_iff, true_implies,
      sndcpSnsm, snsmUp] <;>
    (repeat' split) <;>
    simp_all [endSaved, endIn, freeAtEnd, unsupported, Msg.freeIn, freedOnce, leaked, Msg.free, eNotSup, aborted,
      eOther] <;>
    (repeat' split) <;> simp_all [Msg.freeIn, Msg.free]

theorem own_smUpperDown (sap typ : Nat) (op : Op) (found good ms : Bool) (rc : Int) (hrc : rc ≠ 1) :
    Owned .smUpperDown ⟨sap, typ, op⟩ ⟨found, good, rc, ms⟩ := by
  refine ⟨?_, ?_, ?_, ?_⟩ <;>
    simp only [Entry.hand, freedTwice, readAfterFree, notFreed, sndcpTakes, false_implies, not_false_iff, true_implies,
      smUpperDown] <;>
    (repeat' split) <;>
    simp_all [endSaved, endIn, freeAtEnd, unsupported, Msg.freeIn, freedOnce, leaked, Msg.free, eNotSup, aborted,
      eOther] <;>
    (repeat' split) <;> simp_all [Msg.freeIn, Msg.free]

theorem own_smSndcpDown (sap typ : Nat) (op : Op) (found good ms : Bool) (rc : Int) (hrc : rc ≠ 1) :
    Owned .smSndcpUpperDown ⟨sap, typ, op⟩ ⟨found, good, rc, ms⟩ := by
  refine ⟨?_, ?_, ?_, ?_⟩ <;>
    simp only [Entry.hand, freedTwice, readAfterFree, notFreed, sndcpTakes, false_implies, not_false_iff, true_implies,
      smSndcpDown] <;>
    (repeat' split) <;>
    simp_all [endSaved, endIn, freeAtEnd, unsupported, Msg.freeIn, freedOnce, leaked, Msg.free, eNotSup, aborted,
      eOther] <;>
    (repeat' split) <;> simp_all [Msg.freeIn, Msg.free]

theorem own_smLowerUp (sap typ : Nat) (op : Op) (found good ms : Bool) (rc : Int) (hrc : rc ≠ 1) :
    Owned .smLowerUp ⟨sap, typ, op⟩ ⟨found, good, rc, ms⟩ := by
  refine ⟨?_, ?_, ?_, ?_⟩ <;>
    simp only [Entry.hand, freedTwice, readAfterFree, notFreed, sndcpTakes, false_implies, not_false_iff, true_implies,
      smLowerUp] <;>
    (repeat' split) <;>
    simp_all [endSaved, endIn, freeAtEnd, unsupported, Msg.freeIn, freedOnce, leaked, Msg.free, eNotSup, aborted,
      eOther] <;>
    (repeat' split) <;> simp_all [Msg.freeIn, Msg.free]

theorem own_smGmmUp (sap typ : Nat) (op : Op) (found good ms : Bool) (rc : Int) (hrc : rc ≠ 1) :
    Owned .smGmmLowerUp ⟨sap, typ, op⟩ ⟨found, good, rc, ms⟩ := by
  refine ⟨?_, ?_, ?_, ?_⟩ <;>
    simp only [Entry.hand, freedTwice, readAfterFree, notFreed, sndcpTakes, false_implies, not_false_iff, true_implies,
      smGmmUp] <;>
    (repeat' split) <;>
    simp_all [endSaved, endIn, freeAtEnd, unsupported, Msg.freeIn, freedOnce, leaked, Msg.free, eNotSup, aborted,
      eOther] <;>
    (repeat' split) <;> simp_all [Msg.freeIn, Msg.free]

theorem own_gmmUpperDown (sap typ : Nat) (op : Op) (found good ms : Bool) (rc : Int) (hrc : rc ≠ 1) :
    Owned .gmmUpperDown ⟨sap, typ, op⟩ ⟨found, good, rc, ms⟩ := by
  refine ⟨?_, ?_, ?_, ?_⟩ <;>
    simp only [Entry.hand, freedTwice, readAfterFree, notFreed, sndcpTakes, false_implies, not_false_iff, true_implies,
      gmmUpperDown] <;>
    (repeat' split) <;>
    simp_all [endSaved, endIn, freeAtEnd, unsupported, Msg.freeIn, freedOnce, leaked, Msg.free, eNotSup, aborted,
      eOther] <;>
    (repeat' split) <;> simp_all [Msg.freeIn, Msg.free]

theorem own_gmmLowerUp (sap typ : Nat) (op : Op) (found good ms : Bool) (rc : Int) (hrc : rc ≠ 1) :
    Owned .gmmLowerUp ⟨sap, typ, op⟩ ⟨found, good, rc, ms⟩ := by
  refine ⟨?_, ?_, ?_, ?_⟩ <;>
    simp only [Entry.hand, freedTwice, readAfterFree, notFreed, sndcpTakes, false_implies, not_false_iff, true_implies,
      gmmLowerUp] <;>
    (repeat' split) <;>
    simp_all [endSaved, endIn, freeAtEnd, unsupported, Msg.freeIn, freedOnce, leaked, Msg.free, eNotSup, aborted,
      eOther] <;>
    (repeat' split) <;> simp_all [Msg.freeIn, Msg.free]

theorem own_gmmLlcUp (sap typ : Nat) (op : Op) (found good ms : Bool) (rc : Int) (hrc : rc ≠ 1) :
    Owned .gmmLlcLowerUp ⟨sap, typ, op⟩ ⟨found, good, rc, ms⟩ := by
  refine ⟨?_, ?_, ?_, ?_⟩ <;>
    simp only [Entry.hand, freedTwice, readAfterFree, notFreed, sndcpTakes, false_implies, not_false_iff, true_implies,
      gmmLlcUp] <;>
    (repeat' split) <;>
    simp_all [endSaved, endIn, freeAtEnd, unsupported, Msg.freeIn, freedOnce, leaked, Msg.free, eNotSup, aborted,
      eOther] <;>
    (repeat' split) <;> simp_all [Msg.freeIn, Msg.free]

theorem own_rlcmacUpperDown (sap typ : Nat) (op : Op) (found good ms : Bool) (rc : Int) (hrc : rc ≠ 1) :
    Owned .rlcmacUpperDown ⟨sap, typ, op⟩ ⟨found, good, rc, ms⟩ := by
  refine ⟨?_, ?_, ?_, ?_⟩ <;>
    simp only [Entry.hand, freedTwice, readAfterFree, notFreed, sndcpTakes, false_implies, not_false_iff, true_implies,
      rlcmacUpperDown] <;>
    (repeat' split) <;>
    simp_all [endSaved, endIn, freeAtEnd, unsupported, Msg.freeIn, freedOnce, leaked, Msg.free, eNotSup, aborted,
      eOther] <;>
    (repeat' split) <;> simp_all [Msg.freeIn, Msg.free]

theorem own_rlcmacLowerUp (sap typ : Nat) (op : Op) (found good ms : Bool) (rc : Int) (hrc : rc ≠ 1) :
    Owned .rlcmacLowerUp ⟨sap, typ, op⟩ ⟨found, good, rc, ms⟩ := by
  refine ⟨?_, ?_, ?_, ?_⟩ <;>
    simp only [Entry.hand, freedTwice, readAfterFree, notFreed, sndcpTakes, false_implies, not_false_iff, true_implies,
      rlcmacLowerUp] <;>
    (repeat' split) <;>
    simp_all [endSaved, endIn, freeAtEnd, unsupported, Msg.freeIn, freedOnce, leaked, Msg.free, eNotSup, aborted,
      eOther] <;>
    (repeat' split) <;> simp_all [Msg.freeIn, Msg.free]

/-- C141 as far as it holds, with what happens otherwise.  A primitive is freed exactly once and never touched after
that, unless it is one of an explicit list: those of `freedTwice` are freed twice, those of `readAfterFree` are read
after they were freed, those of `notFreed` are never freed (in each case unless an assertion about the state or the
contents failed before). -/
theorem c141_partial (e : Entry) (h : Hdr) (i : Inner) (hrc : i.rc ≠ 1) :
    (freedTwice e h → e.hand h i = .ub .doubleFree ∨ aborted (e.hand h i)) ∧
    (readAfterFree e h i.found → e.hand h i = .ub .useAfterFree ∨ aborted (e.hand h i)) ∧
    (notFreed e h → leaked (e.hand h i)) ∧
    (¬ freedTwice e h → ¬ readAfterFree e h i.found → ¬ notFreed e h →
      freedOnce (e.hand h i) ∨ aborted (e.hand h i)) := by
  obtain ⟨sap, typ, op⟩ := h
  obtain ⟨found, good, rc, ms⟩ := i
  have hall : Owned e ⟨sap, typ, op⟩ ⟨found, good, rc, ms⟩ := by
    cases e
    · exact own_llcUpperDown sap typ op found good ms rc hrc
    · exact own_llcLowerUp sap typ op found good ms rc hrc
    · exact own_sndcpUpperDown sap typ op found good ms rc hrc
    · exact own_sndcpLowerUp sap typ op found good ms rc hrc
    · exact own_sndcpSnsm sap typ op found good ms rc hrc
    · exact own_smUpperDown sap typ op found good ms rc hrc
    · exact own_smSndcpDown sap typ op found good ms rc hrc
    · exact own_smLowerUp sap typ op found good ms rc hrc
    · exact own_smGmmUp sap typ op found good ms rc hrc
    · exact own_gmmUpperDown sap typ op found good ms rc hrc
    · exact own_gmmLowerUp sap typ op found good ms rc hrc
    · exact own_gmmLlcUp sap typ op found good ms rc hrc
    · exact own_rlcmacUpperDown sap typ op found good ms rc hrc
    · exact own_rlcmacLowerUp sap typ op found good ms rc hrc
  exact hall

/-- No abort where the entity and the contents of the primitive are right and the context is that of a mobile station:
what a mobile station's layers hand to each other is freed exactly once. -/
theorem c141_partial_ms (e : Entry) (h : Hdr) (i : Inner) (hrc : i.rc ≠ 1) (hg : i.good = true) (hm : i.ms = true)
    (h1 : ¬ freedTwice e h) (h2 : ¬ readAfterFree e h i.found) (h3 : ¬ notFreed e h)
    (hb : ¬ (e = .llcLowerUp ∧ h.sap = 3))
    (hl : ¬ (e = .llcUpperDown ∧ h.sap = 0 ∧ (h.typ, h.op) ∈ [(1, Op.request), (6, .request)])) :
    freedOnce (e.hand h i) := by
  rcases (c141_partial e h i hrc).2.2.2 h1 h2 h3 with hf | ha
  · exact hf
  · exfalso
    obtain ⟨sap, typ, op⟩ := h
    obtain ⟨found, good, rc, ms⟩ := i
    simp only at hg hm
    subst hg hm
    cases e <;> simp only [aborted, Entry.hand, llcUpperDown, llgmmDown, llDown, llcLowerUp, grrUp, bssgpUp,
        sndcpUpperDown, snDown, sndcpLowerUp, sndcpLl, sndcpSnsm, snsmUp, smUpperDown, smSndcpDown, smLowerUp, smGmmUp,
        gmmUpperDown, gmmLowerUp, gmmLlcUp, rlcmacUpperDown, rlcmacLowerUp] at ha <;>
      (repeat' split at ha) <;>
      simp_all [endSaved, endIn, freeAtEnd, unsupported, Msg.freeIn, Msg.free, eNotSup, eOther] <;>
      (repeat' split at ha) <;> simp_all [Msg.freeIn, Msg.free]

/-- C141 is violated: a GRR-DATA.ind handed up to LLC is freed twice; an SN-DATA.req for an established SNDCP entity, an
SMREG-PDP-DEACTIVATE.req and an unsupported GMMREG request are read after they were freed; an unsupported GRR request is
never freed. -/
theorem c141_violated : ¬ C141Statement := by
  intro h
  have := h .llcLowerUp ⟨2, 0, .indication⟩ ⟨true, true, 0, true⟩ (by decide)
  simp [freedOnce, aborted, Entry.hand, llcLowerUp, grrUp, unsupported, Msg.freeIn, endSaved, Msg.free, eNotSup] at this

/-- The other ways in which it is violated. -/
theorem c141_violated_others :
    Entry.hand .sndcpUpperDown ⟨0, 0, .request⟩ ⟨true, true, 0, true⟩ = .ub .useAfterFree ∧
    Entry.hand .smUpperDown ⟨0, 1, .request⟩ ⟨true, true, 0, true⟩ = .ub .useAfterFree ∧
    Entry.hand .gmmUpperDown ⟨0, 4, .request⟩ ⟨true, true, 0, true⟩ = .ub .useAfterFree ∧
    Entry.hand .sndcpLowerUp ⟨1, 0, .indication⟩ ⟨true, true, 0, true⟩ = .ub .doubleFree ∧
    leaked (Entry.hand .rlcmacUpperDown ⟨0, 2, .request⟩ ⟨true, true, 0, true⟩) := by
  refine ⟨by decide, by decide, by decide, by decide, eNotSup, by decide⟩

/-- The hypotheses are met: an LL-UNITDATA.ind to SNDCP, whatever becomes of it, and a PDP-ACTIVATE.req to SM. -/
example : freedOnce (Entry.hand .sndcpLowerUp ⟨1, 5, .indication⟩ ⟨false, true, 0, true⟩) :=
  c141_partial_ms _ _ _ (by decide) rfl rfl (by simp [freedTwice, sndcpTakes]) (by simp [readAfterFree])
    (by simp [notFreed]) (by simp) (by simp)

example : freedOnce (Entry.hand .smUpperDown ⟨0, 0, .request⟩ ⟨false, true, -22, true⟩) :=
  c141_partial_ms _ _ _ (by decide) rfl rfl (by simp [freedTwice]) (by simp [readAfterFree])
    (by simp [notFreed]) (by simp) (by simp)

/-! ## C142: primitives handed to callbacks -/

/-- A callback that answers `rc` to a primitive. The library frees the primitive unless `rc` is 1, in which case it is
the callback's; what the library's function then returns is `rc`, or 0 for 1. -/
def callbackRule (call : Int → Res (Msg × Int)) : Prop :=
  ∀ rc, call rc = .ok (.freed, if rc = 1 then 0 else rc)

/-- C142, full statement: for every callback. -/
def C142Statement : Prop := ∀ c : Callback, callbackRule c.call

/-- C142 for every callback except SM's to its user (and its unused one down), and LLC's up. -/
theorem c142_partial (c : Callback) (hc : c ≠ .smUp ∧ c ≠ .smDown ∧ c ≠ .llcUp) : callbackRule c.call := by
  intro rc
  cases c <;> simp_all [Callback.call] <;> by_cases h : rc = 1 <;> simp [callCb, Msg.freeIn, h]

/-- LLC's callback up: the primitive is freed as it should be, but 1 is passed on. SM's: any result but 1 is right, and
1 means that the primitive is read and freed although the callback has taken it. -/
theorem c142_partial_rest (rc : Int) :
    Callback.llcUp.call rc = .ok (.freed, rc) ∧
    (rc ≠ 1 → Callback.smUp.call rc = .ok (.freed, rc) ∧ Callback.smDown.call rc = .ok (.freed, rc)) ∧
    Callback.smUp.call 1 = .ub .useAfterFree ∧ Callback.smDown.call 1 = .ub .useAfterFree := by
  refine ⟨?_, ?_, rfl, rfl⟩
  · by_cases h : rc = 1 <;> simp [Callback.call, callCbLlcUp, Msg.freeIn, h]
  · intro h
    simp [Callback.call, callCbSm, Msg.freeIn, h]

/-- C142 is violated: an SMREG primitive whose callback answered 1 (it has taken, and freed, the primitive) is freed by
the library. -/
theorem c142_violated : ¬ C142Statement := by
  intro h
  have := h .smUp 1
  simp [Callback.call, callCbSm, Msg.freeIn] at this

example : Callback.sndcpUp.call 1 = .ok (.freed, 0) := c142_partial .sndcpUp (by decide) 1

end Verif.Props
