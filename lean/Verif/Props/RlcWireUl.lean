import Verif.Rlc.Wire
import Verif.Spec.RlcAir
import Verif.Props.UlLink

/-!
C172: uplink RLC data blocks in octets.
-/

namespace Verif.Props
open Verif Verif.Rlc Verif.Spec

/-! ## The payload of a block is as long as asked for -/

theorem wbind {α β : Type} {x : Res α} {f : α → Res β} {r : β} (h : (x >>= f) = .ok r) : ∃ a, x = .ok a ∧ f a = .ok r := by
  cases x with
  | ok a => exact ⟨a, rfl, h⟩
  | err e => cases h
  | ub f => cases h

theorem copyTo_len {a b s : Octets} {o : Nat} (h : copyTo a o s = .ok b) : b.length = a.length := by
  unfold copyTo at h
  split at h
  · injection h with h; subst h; simp; omega
  · cases h

theorem modAt_len {a b : Octets} {i : Nat} {f : UInt8 → UInt8} (h : modAt a i f = .ok b) : b.length = a.length := by
  unfold modAt at h
  split at h
  · injection h with h; subst h; simp
  · cases h

theorem modLi_len {a b : Octets} {i : Nat} {f : UInt8 → UInt8} (h : modLi i a f = .ok b) : b.length = a.length := by
  unfold modLi at h
  split at h
  · exact modAt_len h
  · injection h with h; rw [h]

theorem appendUl_len {st st' : EncSt} {fin : Bool} {m r : Octets} {a : AppendResult}
    (h : appendUl st fin m = .ok (st', r, a)) : st'.buf.length = st.buf.length := by
  simp only [appendUl] at h
  split at h
  · obtain ⟨b1, h1, h⟩ := wbind h
    obtain ⟨b2, h2, h⟩ := wbind h
    injection h with h; injection h with h _; subst h
    rw [copyTo_len h2, modLi_len h1]
  · split at h
    · obtain ⟨b1, h1, h⟩ := wbind h
      obtain ⟨b2, h2, h⟩ := wbind h
      injection h with h; injection h with h _; subst h
      rw [copyTo_len h2, modLi_len h1]
    · obtain ⟨mv, _, h⟩ := wbind h
      obtain ⟨b1, h1, h⟩ := wbind h
      obtain ⟨b2, h2, h⟩ := wbind h
      split at h
      · obtain ⟨b3, h3, h⟩ := wbind h
        obtain ⟨b4, h4, h⟩ := wbind h
        injection h with h; injection h with h _; subst h
        rw [copyTo_len h4, copyTo_len h3, modLi_len h2, copyTo_len h1]
      · obtain ⟨b3, h3, h⟩ := wbind h
        obtain ⟨b4, h4, h⟩ := wbind h
        injection h with h; injection h with h _; subst h
        rw [copyTo_len h4, copyTo_len h3, modLi_len h2, copyTo_len h1]

theorem fillLoop_len (fin : Bool) : ∀ (q : List Octets) (st st' : EncSt) (q' : List Octets),
    fillLoop fin st q = .ok (st', q') → st'.buf.length = st.buf.length := by
  intro q
  induction q with
  | nil =>
    intro st st' q' h
    simp only [fillLoop] at h
    split at h
    · injection h with h; injection h with h _; rw [h]
    · cases h
  | cons m q ih =>
    intro st st' q' h
    simp only [fillLoop] at h
    split at h
    · split at h
      · injection h with h; injection h with h _; rw [h]
      · cases h
    · obtain ⟨⟨st1, rest, ar⟩, h1, h⟩ := wbind h
      have hl := appendUl_len h1
      cases ar with
      | needMoreBlocks => injection h with h; injection h with h _; rw [← h, hl]
      | completedBlockFilled => injection h with h; injection h with h _; rw [← h, hl]
      | completedSpaceLeft => rw [ih _ _ _ h, hl]

theorem createBlock_len {len cv : Nat} {tlli : Option Nat} {q q' : List Octets} {b : UlBlock}
    (h : createBlock len cv tlli q = .ok (b, q')) : b.data.length = len ∧ b.cv = cv := by
  unfold createBlock at h
  split at h
  · cases h
  · have key : ∀ st0 : EncSt, st0.buf.length = len → (do
        let __x ← fillLoop (decide (cv = 0)) st0 q
        match __x with
          | (st, q') => Res.ok (({ ti := tlli.isSome, e := st.e, cv := cv, data := st.buf } : UlBlock), q')) = .ok (b, q') →
        b.data.length = len ∧ b.cv = cv := by
      intro st0 hl h
      obtain ⟨⟨st, q1⟩, h1, h⟩ := wbind h
      injection h with h; injection h with h _; subst h
      refine ⟨?_, rfl⟩
      show st.buf.length = len
      rw [fillLoop_len _ _ _ _ _ h1, hl]
    cases tlli with
    | none =>
      simp only [Res.bind_ok] at h
      exact key _ (by simp) h
    | some t =>
      simp only [Res.bind_ok] at h
      obtain ⟨b0, hb, h⟩ := wbind h
      refine key _ ?_ h
      show b0.length = len
      rw [copyTo_len hb]; simp

/-! ## Transfers with one coding scheme -/

/-- Every block is asked for with payloads of `n` octets and a countdown value of four bits. -/
def SameSize (n : Nat) (_ : UlLink) : UlLinkEv → Prop
  | .send r => r.len = n ∧ r.cv < 16
  | _ => True

theorem composed_sized {n : Nat} {s : UlLink} (hr : s.Reached (SameSize n)) :
    ∀ b ∈ s.composed, b.data.length = n ∧ b.cv < 16 := by
  induction hr with
  | init q hq => intro b hb; simp [UlLink.init] at hb
  | @step s s' e hr ha hp he ih =>
    obtain ⟨hd, ha⟩ := ha
    cases e with
    | send r =>
      obtain ⟨h, ns, sn, i⟩ := (linkFacts hr).live hd
      obtain ⟨h0, h1, h2⟩ := ha
      obtain ⟨s1, w', bsn, k, m, _, _, e1, _, _, _, _, _, _, enew, eold, _⟩ := i.send r h0 (by unfold hdrLen; omega) h2
      rw [he] at e1; injection e1 with e1; subst e1
      by_cases hk : k = .new
      · obtain ⟨_, b, c1, c2, _⟩ := enew hk
        rw [c2]
        intro x hx
        rcases List.mem_append.1 hx with hx | hx
        · exact ih x hx
        · rw [List.mem_singleton.1 hx, (createBlock_len c1).1, (createBlock_len c1).2]; exact hp
      · rw [(eold hk).1]; exact ih
    | frame f => injection he with he; subst he; exact ih
    | upArrives =>
      simp only [UlLink.step] at he
      split at he <;> (injection he with he; subst he; exact ih)
    | upLost => injection he with he; subst he; exact ih
    | report d => injection he with he; subst he; exact ih
    | downArrives =>
      simp only [UlLink.step] at he
      split at he <;> (injection he with he; subst he; exact ih)
    | downLost => injection he with he; subst he; exact ih

theorem forall₂_last {α β : Type} {R : α → β → Prop} : ∀ {l : List α} {m : List β} {x : α} {y : β},
    List.Forall₂ R (l ++ [x]) (m ++ [y]) → R x y := by
  intro l m x y h
  have := List.rel_reverse h
  simp at this
  exact this.1

/-- The block sent next. -/
theorem sent_sized {n : Nat} {s : UlLink} (hr : s.Reached (SameSize n)) {r : UlTxReq} (ha : s.Allowed (.send r))
    (hn : r.len = n) (hc : r.cv < 16) :
    ∃ tx bsn b k, s.tx.dataCreate r = .ok (tx, bsn, b, k) ∧ bsn < 128 ∧ b.data.length = n ∧ b.cv < 16 := by
  obtain ⟨h, ns, sn, i⟩ := (linkFacts hr).live ha.1
  have ha' := ha
  obtain ⟨hd, h0, h1, h2⟩ := ha'
  obtain ⟨s1, w', bsn, k, m, _, _, e1, j, _⟩ := i.send r h0 (by unfold hdrLen; omega) h2
  have e1' := e1
  simp only [UlLink.step] at e1'
  obtain ⟨⟨tx, bsn', b, k'⟩, hdc, e1'⟩ := wbind e1'
  injection e1' with e1'
  have hu := j.up
  have hup : s1.up = s.up ++ [(bsn', b)] := by rw [← e1']
  rw [hup] at hu
  have u := forall₂_last hu
  have hb := composed_sized (.step hr ha ⟨hn, hc⟩ e1) b (List.mem_of_getElem? u.blk)
  refine ⟨tx, bsn', b, k', hdc, ?_, hb.1, hb.2⟩
  have := u.bsn
  simp only at this
  omega

/-! ## The octets -/

/-- Coding schemes CS-1 to CS-4 with the octets of their payloads. -/
def CsSize (cs n : Nat) : Prop := (cs, n) = (1, 20) ∨ (cs, n) = (2, 30) ∨ (cs, n) = (3, 36) ∨ (cs, n) = (4, 50)

theorem ulDataMsg_eq (cs n tfi bsn : Nat) (b : UlBlock) (h : CsSize cs n) (hn : b.data.length = n) :
    ulDataMsg cs tfi bsn b = .ok (ulHeader tfi bsn b ++ b.data ++ List.replicate (sizeUl cs - 3 - n) 0) := by
  have key : ∀ (i : DataInfo) (z : Nat), dataInfoInit true cs false = .ok i → i.n = 1 → i.offs 0 = 24 → i.len = n →
      hdrType cs = 2 → sizeUl cs = 3 + n + z →
      ulDataMsg cs tfi bsn b = .ok (ulHeader tfi bsn b ++ b.data ++ List.replicate (sizeUl cs - 3 - n) 0) := by
    intro i z h1 h2 h3 h4 h5 h6
    unfold ulDataMsg
    rw [h1, Res.bind_ok]
    have hrd : rdN b.data 0 n = .ok b.data := by
      unfold rdN
      rw [if_pos (by omega)]
      simp [List.take_of_length_le (Nat.le_of_eq hn)]
    have hc : copyFromAligned i 0 (List.replicate (sizeUl cs) 0) b.data =
        .ok (List.replicate 3 0 ++ (b.data ++ List.replicate z 0)) := by
      unfold copyFromAligned
      rw [if_pos (by omega), h3, h4, hrd, Res.bind_ok]
      rw [if_pos (by decide)]
      unfold copyTo
      rw [h6, if_pos (by simp; omega)]
      congr 1
      simp [List.take_replicate, List.drop_replicate, hn]
      rw [show min 3 (3 + n + z) = 3 by omega]; rfl
    rw [hc, Res.bind_ok, if_pos h5]
    unfold copyTo
    rw [if_pos (by simp [ulHeader])]
    congr 1
    have hz : sizeUl cs - 3 - n = z := by omega
    rw [hz]
    simp [ulHeader]
  rcases h with h | h | h | h <;> injection h with h hx <;> subst h <;> subst hx
  · exact key ⟨_, _, _⟩ 0 rfl rfl rfl rfl rfl rfl
  · exact key ⟨_, _, _⟩ 1 rfl rfl rfl rfl rfl rfl
  · exact key ⟨_, _, _⟩ 1 rfl rfl rfl rfl rfl rfl
  · exact key ⟨_, _, _⟩ 1 rfl rfl rfl rfl rfl rfl

theorem u8o (n : Nat) (h : n < 256) : (UInt8.ofNat n).toNat = n := by
  simp only [UInt8.toNat_ofNat', Nat.reducePow]; omega

theorem ulDataMsg_read (cs n tfi bsn : Nat) (b : UlBlock) (h : CsSize cs n) (hn : b.data.length = n) (ht : tfi < 32)
    (hb : bsn < 128) (hc : b.cv < 16) :
    ∃ d, ulDataMsg cs tfi bsn b = .ok d ∧ readUlAir d = some (⟨b.cv, false, false, false, tfi, b.ti, bsn, b.e⟩, b.data) := by
  refine ⟨_, ulDataMsg_eq cs n tfi bsn b h hn, ?_⟩
  have hl : ulPayloadLen ((b.data ++ List.replicate (sizeUl cs - 3 - n) 0).length + 3) = some n := by
    rw [List.length_append, List.length_replicate, hn]
    rcases h with h | h | h | h <;> injection h with h hx <;> subst h <;> subst hx <;> rfl
  have htake : (b.data ++ List.replicate (sizeUl cs - 3 - n) (0 : UInt8)).take n = b.data := by rw [← hn]; simp
  have hti : ∀ x : Bool, (if x then 1 else 0 : Nat) < 2 := by intro x; cases x <;> decide
  have h1 := hti b.ti
  have h2 := hti b.e
  have hd : ∀ x : Bool, decide ((if x then 1 else 0 : Nat) = 1) = x := by intro x; cases x <;> rfl
  simp only [ulHeader, List.cons_append, List.nil_append, readUlAir, readUlHead]
  rw [u8o _ (by omega), u8o _ (by omega), u8o _ (by omega), if_pos (by omega), hl]
  simp only [Option.bind_eq_bind, Option.bind_some, htake]
  congr 2
  have a1 : (0 % 2 + 0 % 2 * 2 + b.cv % 16 * 4 + 0 * 64) / 4 % 16 = b.cv := by omega
  have a2 : (0 % 2 + 0 % 2 * 2 + b.cv % 16 * 4 + 0 * 64) / 2 % 2 = 0 := by omega
  have a3 : (0 % 2 + 0 % 2 * 2 + b.cv % 16 * 4 + 0 * 64) % 2 = 0 := by omega
  have a4 : ((if b.ti = true then 1 else 0) + tfi % 32 * 2 + 0 * 64 + 0 * 128) / 64 % 2 = 0 := by omega
  have a5 : ((if b.ti = true then 1 else 0) + tfi % 32 * 2 + 0 * 64 + 0 * 128) / 2 % 32 = tfi := by omega
  have a6 : ((if b.ti = true then 1 else 0) + tfi % 32 * 2 + 0 * 64 + 0 * 128) % 2 = (if b.ti = true then 1 else 0) := by omega
  have a7 : ((if b.e = true then 1 else 0) + bsn % 128 * 2) / 2 = bsn := by omega
  have a8 : ((if b.e = true then 1 else 0) + bsn % 128 * 2) % 2 = (if b.e = true then 1 else 0) := by omega
  rw [a1, a2, a3, a4, a5, a6, a7, a8, hd, hd]
  simp

/-! ## C172 -/

/-- **C172**, full statement.  In a transfer with one coding scheme, whatever the radio link does: every data block leaves in
octets that the network reads as a block with the TFI of the TBF, the block's number, countdown value, TI, E and payload, with
R and PI not set, and with the stall indicator telling whether the transmit window is stalled (TS 44.060, 10.4.4:
V(S) = V(A) + 64 modulo 128). -/
def C172Statement : Prop :=
  ∀ cs n, CsSize cs n → ∀ (s : UlLink), s.Reached (SameSize n) → ∀ r tfi, s.Allowed (.send r) → r.len = n → r.cv < 16 → tfi < 32 →
    ∃ tx bsn b k d, s.tx.dataCreate r = .ok (tx, bsn, b, k) ∧ ulDataMsg cs tfi bsn b = .ok d ∧
      readUlAir d = some (⟨b.cv, decide (s.tx.w.vs = (s.tx.w.va + 64) % 128), false, false, tfi, b.ti, bsn, b.e⟩, b.data)

/-- All of C172 but the stall indicator. -/
theorem c172_partial (cs n : Nat) (h : CsSize cs n) (s : UlLink) (hr : s.Reached (SameSize n)) (r : UlTxReq) (tfi : Nat)
    (ha : s.Allowed (.send r)) (hn : r.len = n) (hc : r.cv < 16) (ht : tfi < 32) :
    ∃ tx bsn b k d, s.tx.dataCreate r = .ok (tx, bsn, b, k) ∧ ulDataMsg cs tfi bsn b = .ok d ∧
      ∃ si, readUlAir d = some (⟨b.cv, si, false, false, tfi, b.ti, bsn, b.e⟩, b.data) := by
  obtain ⟨tx, bsn, b, k, e, h1, h2, h3⟩ := sent_sized hr ha hn hc
  obtain ⟨d, hd, hrd⟩ := ulDataMsg_read cs n tfi bsn b h h2 ht h1 h3
  exact ⟨tx, bsn, b, k, d, e, hd, false, hrd⟩

/-! ## The stall indicator -/

/-- The request of the witness: CS-1, no TLLI. -/
def stallReq : UlTxReq := ⟨20, 15, none, true⟩

/-- A transfer of one long frame in which 64 blocks have been sent. -/
def stallRun : Res UlLink := UlLink.run (List.replicate 64 (.send stallReq)) (UlLink.init [List.replicate 1400 7])

theorem longFrame_ne : ∀ f ∈ [List.replicate 1400 (7 : UInt8)], f ≠ [] := by
  intro f hf h
  rw [List.mem_singleton.1 hf] at h
  exact absurd (congrArg List.length h) (by rw [List.length_replicate]; exact (by decide : ¬ (1400 = 0)))

theorem sends_reached (n : Nat) (r : UlTxReq) (hn : r.len = n) (hc : r.cv < 16) (h1 : (if r.tlli.isSome then 4 else 0) + 1 < r.len)
    (h2 : r.len < 64) : ∀ (k : Nat) (s s' : UlLink), s.Reached (SameSize n) → s.done = false → s.offered ≠ [] →
    UlLink.run (List.replicate k (.send r)) s = .ok s' → s'.Reached (SameSize n) ∧ s'.done = false ∧ s'.offered ≠ [] := by
  intro k
  induction k with
  | zero => intro s s' hr hd ho h; injection h with h; subst h; exact ⟨hr, hd, ho⟩
  | succ k ih =>
    intro s s' hr hd ho h
    rw [List.replicate_succ] at h
    simp only [UlLink.run] at h
    obtain ⟨s1, e1, h⟩ := wbind h
    have ha : s.Allowed (.send r) := ⟨hd, ho, h1, h2⟩
    have hr1 : s1.Reached (SameSize n) := .step hr ha ⟨hn, hc⟩ e1
    simp only [UlLink.step] at e1
    obtain ⟨x, _, e1⟩ := wbind e1
    injection e1 with e1
    exact ih s1 s' hr1 (by rw [← e1]; exact hd) (by rw [← e1]; exact ho) h

theorem c172_violated : ¬ C172Statement := by
  intro hall
  have hw : (match stallRun with
      | .ok s => s.tx.w.vs == 64 && s.tx.w.va == 0
      | _ => false) = true := by decide +kernel
  cases hs : stallRun with
  | err e => rw [hs] at hw; cases hw
  | ub f => rw [hs] at hw; cases hw
  | ok s =>
    rw [hs] at hw
    simp only [Bool.and_eq_true, beq_iff_eq] at hw
    obtain ⟨hr, hd, ho⟩ := sends_reached 20 stallReq rfl (by decide) (by decide) (by decide) 64 _ s
      (.init _ longFrame_ne) rfl (fun h => by cases h) hs
    have ha : s.Allowed (.send stallReq) := ⟨hd, ho, by decide, by decide⟩
    obtain ⟨tx, bsn, b, k, d, e1, e2, e3⟩ := hall 1 20 (Or.inl rfl) s hr stallReq 3 ha rfl (by decide) (by decide)
    obtain ⟨tx', bsn', b', k', e1', h1, h2, h3⟩ := sent_sized hr ha rfl (by decide)
    rw [e1] at e1'
    injection e1' with e1'
    injection e1' with _ e1'
    injection e1' with hb e1'
    injection e1' with hbl _
    subst hb hbl
    obtain ⟨d', e2', e3'⟩ := ulDataMsg_read 1 20 3 bsn b (Or.inl rfl) h2 (by decide) h1 h3
    rw [e2] at e2'
    injection e2' with e2'
    subst e2'
    rw [e3, hw.1, hw.2] at e3'
    injection e3' with e3'
    injection e3' with e3' _
    injection e3' with _ e3' _
    revert e3'
    decide

/-- A transfer that meets the hypotheses of `c172_partial`, with CS-2. -/
example : ∃ s : UlLink, s.Reached (SameSize 30) ∧ s.Allowed (.send ⟨30, 2, some 0xc0001234, true⟩) :=
  ⟨_, .init [List.replicate 70 1] (by intro f hf; rw [List.mem_singleton.1 hf]; simp), rfl, by simp [UlLink.init], by decide, by decide⟩

end Verif.Props
