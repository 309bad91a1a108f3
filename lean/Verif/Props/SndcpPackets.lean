import Verif.Props.SndcpComp
import Verif.Props.SndcpV42
import Verif.Props.SndcpSegment
/-!
# C170: packets the peer compressed as agreed
-/
namespace Verif.Props
open Verif Verif.Spec Verif.Spec.Sndcp Verif.Spec.SndcpXid Verif.Sndcp

/-! ## Statement -/

/-- An N-PDU in one SN-UNITDATA PDU (TS 44.065, figure 9) with its compression values. -/
def snUnitdata (nsapi num pcomp dcomp : Nat) (data : Octets) : Octets :=
  UInt8.ofNat (64 + 32 + nsapi) :: UInt8.ofNat (dcomp * 16 + pcomp) :: UInt8.ofNat (num / 256) :: UInt8.ofNat (num % 256) :: data

/-- **C170**, full statement.  When the station has accepted the peer's proposal to use V.42bis in both directions, a
packet that the peer compresses with these parameters and marks with the agreed value is handed up as it was. -/
def C170Statement : Prop :=
  ∀ cfg (x : Proposal) p1 p2 d s as nsapi num npdu z, x.Legal → x.alg = .v42bis 3 p1 p2 → x.comps = [d] → d ≠ 0 →
    x.applies nsapi = true → 5 ≤ nsapi → nsapi ≤ 15 → num < 4096 → npdu.length ≤ 1502 →
    xidInd cfg {} (xidBlock (some 0) [x]) = .ok (s, as) → (∃ e ∈ s.data, nsapi ∈ e.nsapis ∧ e.comp = [d] ∧ e.works = true) →
    V42.compressUnitdata 3 p1 p2 npdu = .ok (1, z) →
    ∃ t, rxRun {} [snUnitdata nsapi num 0 d z] = .ok (t, [npdu])

/-! ## Violated -/

def egBoth : Proposal := { egData with alg := .v42bis 3 512 250 }

theorem one_pdu (z : Octets) (h2 : 0 < z.length) : rxRun {} [snUnitdata 5 0 0 1 z] = .ok ({ dcomp := 1 }, [z]) := by
    have hl : llUnitdataInd {} (snUnitdata 5 0 0 1 z) = .ok ({ dcomp := 1 }, .deliver z) := by
      have e0 : ∀ (a : UInt8) (l : Octets), rd (a :: l) 0 = .ok a.toNat := fun _ _ => rfl
      have e1 : ∀ (a b : UInt8) (l : Octets), rd (a :: b :: l) 1 = .ok b.toNat := fun _ _ _ => rfl
      have e2 : ∀ (a b c : UInt8) (l : Octets), rd (a :: b :: c :: l) 2 = .ok c.toNat := fun _ _ _ _ => rfl
      have e3 : ∀ (a b c d : UInt8) (l : Octets), rd (a :: b :: c :: d :: l) 3 = .ok d.toNat := fun _ _ _ _ _ => rfl
      have k1 : (UInt8.ofNat (64 + 32 + 5)).toNat = 101 := by decide
      have k2 : (UInt8.ofNat (1 * 16 + 0)).toNat = 16 := by decide
      unfold llUnitdataInd handleUnitdataInd snUnitdata
      simp only [e0, e1, e2, e3, k1, k2, Res.bind_ok, List.length_cons, List.drop_succ_cons, List.drop_zero]
      rw [if_neg (by omega), if_neg (by decide), if_neg (by omega), if_pos (by decide), if_neg (by decide), if_neg (by omega)]
    rw [rxRun, hl]
    rfl

/-- **C170 is violated**: SNDCP asks whether any compression is configured, and the answer is always no
(sndcp.c:262-273), so the compressed octets are handed up. -/
theorem c170_violated : ¬ C170Statement := by
  intro h
  obtain ⟨i, z, e, -⟩ := c126 3 3 512 250 (by decide) (by decide) (by decide) (by decide) (by decide) (List.replicate 800 65)
  have hp := long_run_packed
  rw [e] at hp
  have h1 : i = 1 := (Prod.mk.inj hp).1
  have h2 : z.length = 70 := (Prod.mk.inj hp).2
  subst h1
  obtain ⟨t, ht⟩ := h ⟨true, true⟩ egBoth 512 250 1 { proto := [], data := [entityFor egBoth] } [answerField egBoth] 5 0
    (List.replicate 800 65) z ⟨by decide, rfl, by decide, by decide, by decide, by decide⟩ rfl rfl (by decide) (by decide)
    (by decide) (by decide) (by decide) (by rw [List.length_replicate]; decide) (by decide +kernel)
    ⟨_, List.mem_cons_self, by decide, by decide, by decide⟩ e
  have hr := one_pdu z (by omega)
  rw [hr] at ht
  injection ht with ht
  have := congrArg List.length (List.head_eq_of_cons_eq (Prod.mk.inj ht).2)
  rw [h2, List.length_replicate] at this
  exact absurd this (by decide)

/-! ## Proved part -/

/-- An SN-PDU with other compression values: the second octet of a first segment. -/
def withComp (c : UInt8) : Octets → Octets
  | h :: o :: l => if fBit [h] then h :: c :: l else h :: o :: l
  | b => b

/-- A history of SN-PDUs with other compression values. -/
def withComps : List UInt8 → List Octets → List Octets
  | c :: cs, b :: bs => withComp c b :: withComps cs bs
  | _, bs => bs

/-- Forget the compression values. -/
def bare (s : Defrag) : Defrag := { s with pcomp := 0, dcomp := 0 }

/-- What is seen of an outcome. -/
def bareRes (r : Res (Defrag × RxOut)) : Res (Defrag × RxOut) :=
  match r with
  | .ok (s, o) => .ok (bare s, o)
  | .err e => .err e
  | .ub f => .ub f

theorem bare_eq {s s' : Defrag} (h : bare s = bare s') : s' = { s with pcomp := s'.pcomp, dcomp := s'.dcomp } := by
  cases s; cases s'
  simp only [bare, Defrag.mk.injEq] at h ⊢
  simp_all

theorem defragSegments_bare (s : Defrag) (p d : Nat) :
    bareRes (defragSegments { s with pcomp := p, dcomp := d }) = bareRes (defragSegments s) := by
  unfold defragSegments
  dsimp only
  cases collect (s.totLen + 256) (List.range (s.highestSeg + 1)) s.frags [] with
  | err e => rfl
  | ub f => rfl
  | ok x =>
    obtain ⟨o, f⟩ := x
    cases o with
    | none => rfl
    | some b =>
      dsimp only
      split <;> rfl

/-- `defragSeg` up to the last step (proof device). -/
def segIn (s : Defrag) (first more : Bool) (npdu seg : Nat) (data : Octets) : Defrag :=
  let s0 := if first then
      { s with frags := [], npdu := npdu, noMore := false, highestSeg := 0, segHave := 0, totLen := 0 }
    else s
  let s1 := defragEnqueue s0 seg data
  if more then s1 else { s1 with noMore := true }

/-- The last step of `defragSeg` (proof device). -/
def segEnd (s : Defrag) : Res (Defrag × RxOut) := if s.noMore && haveAll s then defragSegments s else .ok (s, .quiet)

theorem segEnd_bare (s : Defrag) (p d : Nat) : bareRes (segEnd { s with pcomp := p, dcomp := d }) = bareRes (segEnd s) := by
  unfold segEnd
  have h : haveAll { s with pcomp := p, dcomp := d } = haveAll s := rfl
  rw [h]
  dsimp only
  split
  · exact defragSegments_bare s p d
  · rfl

theorem segIn_bare (s : Defrag) (p d : Nat) (f m : Bool) (n g : Nat) (b : Octets) :
    segIn { s with pcomp := p, dcomp := d } f m n g b = { segIn s f m n g b with pcomp := p, dcomp := d } := by
  cases f <;> cases m <;> rfl

theorem defragSeg_bare (s : Defrag) (p d : Nat) (f m : Bool) (n g : Nat) (b : Octets) :
    bareRes (defragSeg { s with pcomp := p, dcomp := d } f m n g b) = bareRes (defragSeg s f m n g b) := by
  show bareRes (segEnd (segIn _ f m n g b)) = bareRes (segEnd (segIn s f m n g b))
  rw [segIn_bare]
  exact segEnd_bare _ p d

/-- Reading goes on alike. -/
theorem bareRes_bind {α : Type} (x : Res α) (f g : α → Res (Defrag × RxOut)) (h : ∀ a, bareRes (f a) = bareRes (g a)) :
    bareRes (x >>= f) = bareRes (x >>= g) := by
  cases x with
  | ok a => exact h a
  | err e => rfl
  | ub u => rfl

theorem defragBody_bare (s : Defrag) (p d : Nat) (h o c : UInt8) (l : Octets) (f m : Bool) :
    bareRes (defragBody { s with pcomp := p, dcomp := d } (h :: c :: l) f m 2) = bareRes (defragBody s (h :: o :: l) f m 2) := by
  unfold defragBody
  show bareRes (rd (h :: o :: l) 2 >>= fun u0 => rd (h :: o :: l) 3 >>= fun u1 => rdN (h :: o :: l) 4 (u32Sub (h :: o :: l).length 4) >>= fun data =>
    defragSeg { s with pcomp := p, dcomp := d } f m (u0 % 16 * 256 + u1) (u0 / 16) data) = _
  refine bareRes_bind _ _ _ fun u0 => bareRes_bind _ _ _ fun u1 => bareRes_bind _ _ _ fun data => ?_
  exact defragSeg_bare ..

theorem defragBody_state (s : Defrag) (p d : Nat) (b : Octets) (f m : Bool) (k : Nat) :
    bareRes (defragBody { s with pcomp := p, dcomp := d } b f m k) = bareRes (defragBody s b f m k) := by
  unfold defragBody
  refine bareRes_bind _ _ _ fun u0 => bareRes_bind _ _ _ fun u1 => bareRes_bind _ _ _ fun data => ?_
  exact defragSeg_bare ..

theorem defragInput_cons {s : Defrag} {a c : UInt8} {l : Octets} : defragInput s (a :: c :: l) =
    defragBody s (a :: c :: l) (decide (a.toNat / 64 % 2 = 1)) (decide (a.toNat / 16 % 2 = 1))
      (if decide (a.toNat / 64 % 2 = 1) = true then 2 else 1) := by
  unfold defragInput
  rw [show rd (a :: c :: l) 0 = .ok a.toNat from rfl, Res.bind_ok]

theorem defragInput_first {s : Defrag} {h c : UInt8} {l : Octets} (hf : h.toNat / 64 % 2 = 1) :
    defragInput s (h :: c :: l) = defragBody s (h :: c :: l) true (decide (h.toNat / 16 % 2 = 1)) 2 := by
  rw [defragInput_cons, decide_eq_true hf, if_pos rfl]

theorem ind_cons (s : Defrag) (h : UInt8) (l : Octets) : llUnitdataInd s (h :: l) = handleUnitdataInd s (h :: l) := by
  unfold llUnitdataInd
  rw [if_neg (by simp)]

theorem llUnitdataInd_bare (s s' : Defrag) (hs : bare s = bare s') (c : UInt8) (b : Octets) :
    bareRes (llUnitdataInd s' (withComp c b)) = bareRes (llUnitdataInd s b) := by
  rw [bare_eq hs]
  generalize s'.pcomp = p
  generalize s'.dcomp = d
  cases b with
  | nil => rfl
  | cons h l =>
    cases l with
    | nil =>
      rw [show withComp c [h] = [h] from rfl, ind_cons, ind_cons]
      unfold handleUnitdataInd
      refine bareRes_bind _ _ _ fun x => ?_
      dsimp only
      split
      · rfl
      · rfl
    | cons o l =>
      have key : ∀ c', ((h.toNat / 64 % 2 = 1) ∨ c' = o) →
          bareRes (handleUnitdataInd { s with pcomp := p, dcomp := d } (h :: c' :: l)) = bareRes (handleUnitdataInd s (h :: o :: l)) := by
        intro c' hc
        unfold handleUnitdataInd
        have e0 : ∀ x : UInt8, rd (h :: x :: l) 0 = .ok h.toNat := fun _ => rfl
        have e1 : ∀ x : UInt8, rd (h :: x :: l) 1 = .ok x.toNat := fun _ => rfl
        have e2 : ∀ x : UInt8, rd (h :: x :: l) 2 = rd (h :: o :: l) 2 := fun _ => rfl
        have e3 : ∀ x : UInt8, rd (h :: x :: l) 3 = rd (h :: o :: l) 3 := fun _ => rfl
        simp only [e0, e1, Res.bind_ok, List.length_cons]
        split
        · rfl
        · split
          · rfl
          · split
            · rename_i hf
              split
              · rw [defragInput_first hf, defragInput_first hf]
                have := defragBody_bare { s with pcomp := o.toNat % 16, dcomp := o.toNat / 16 } (c'.toNat % 16) (c'.toNat / 16) h o c' l true
                  (decide (h.toNat / 16 % 2 = 1))
                dsimp only at this ⊢
                exact this
              · rw [e2 c', e3 c']
                refine bareRes_bind _ _ _ fun u0 => bareRes_bind _ _ _ fun u1 => ?_
                by_cases hl : l.length + 1 + 1 ≤ 4
                · rw [if_pos hl, if_pos hl]; rfl
                · rw [if_neg hl, if_neg hl]
                  simp only [bareRes, bare, List.drop_succ_cons]
            · rename_i hf
              have : c' = o := hc.resolve_left hf
              subst this
              unfold defragInput
              refine bareRes_bind _ _ _ fun x => ?_
              exact defragBody_state s p d _ _ _ _
      simp only [withComp]
      by_cases hf : fBit [h] = true
      · rw [if_pos hf, ind_cons, ind_cons]
        exact key c (Or.inl (of_decide_eq_true hf))
      · rw [if_neg hf, ind_cons, ind_cons]
        exact key o (Or.inr rfl)

theorem withComp_own (b : Octets) : ∃ c, withComp c b = b := by
  match b with
  | [] => exact ⟨0, rfl⟩
  | [h] => exact ⟨0, rfl⟩
  | h :: o :: l => exact ⟨o, by simp only [withComp]; split <;> rfl⟩

theorem llUnitdataInd_state {s s' : Defrag} (hs : bare s = bare s') (b : Octets) :
    bareRes (llUnitdataInd s' b) = bareRes (llUnitdataInd s b) := by
  obtain ⟨c, hc⟩ := withComp_own b
  have := llUnitdataInd_bare s s' hs c b
  rw [hc] at this
  exact this

/-- The N-PDUs handed up in a history. -/
def handed (r : Res (Defrag × List Octets)) : Res (List Octets) :=
  match r with
  | .ok x => .ok x.2
  | .err e => .err e
  | .ub f => .ub f

theorem rxRun_bare : ∀ (bs : List Octets) (cs : List UInt8) (s s' : Defrag), bare s = bare s' →
    handed (rxRun s' (withComps cs bs)) = handed (rxRun s bs) := by
  intro bs
  induction bs with
  | nil => intro cs s s' h; cases cs <;> rfl
  | cons b bs ih =>
    intro cs s s' h
    have key : ∀ b' cs', withComps cs (b :: bs) = b' :: withComps cs' bs →
        bareRes (llUnitdataInd s' b') = bareRes (llUnitdataInd s b) →
        handed (rxRun s' (withComps cs (b :: bs))) = handed (rxRun s (b :: bs)) := by
      intro b' cs' e1 e2
      rw [e1, rxRun, rxRun]
      cases h1 : llUnitdataInd s' b' with
      | err x =>
        cases h2 : llUnitdataInd s b with
        | err y => rw [h1, h2] at e2; injection e2 with e2; subst e2; rfl
        | ub y => rw [h1, h2] at e2; cases e2
        | ok y => rw [h1, h2] at e2; cases e2
      | ub x =>
        cases h2 : llUnitdataInd s b with
        | err y => rw [h1, h2] at e2; cases e2
        | ub y => rw [h1, h2] at e2; injection e2 with e2; subst e2; rfl
        | ok y => rw [h1, h2] at e2; cases e2
      | ok x =>
        cases h2 : llUnitdataInd s b with
        | err y => rw [h1, h2] at e2; cases e2
        | ub y => rw [h1, h2] at e2; cases e2
        | ok y =>
          obtain ⟨t', o'⟩ := x
          obtain ⟨t, o⟩ := y
          rw [h1, h2] at e2
          injection e2 with e2
          injection e2 with e2 e3
          subst e3
          have := ih cs' t t' e2.symm
          dsimp only
          cases h3 : rxRun t' (withComps cs' bs) <;> cases h4 : rxRun t bs <;> rw [h3, h4] at this <;> simp only [handed, reduceCtorEq, Res.ok.injEq, Res.err.injEq, Res.ub.injEq] at this ⊢ <;> rw [this]
    cases cs with
    | nil => exact key b [] rfl (llUnitdataInd_state h b)
    | cons c cs => exact key _ cs rfl (llUnitdataInd_bare s s' h c b)

/-- **C170** (partial; missing: that a compressed packet is expanded).  Compression values are of no consequence: in every
history, from every state, whatever is received is handed up as it would be with any other values.  So packets sent as they
are (C41, C42) arrive, also when compression was agreed. -/
theorem c170_partial (s : Defrag) (bs : List Octets) (cs : List UInt8) :
    handed (rxRun s (withComps cs bs)) = handed (rxRun s bs) := rxRun_bare bs cs s s rfl

/-- And the station itself marks everything it sends as not compressed. -/
theorem c170_sender (acc : Nat → Bool) (e : TxEnt) (npdu : Octets) (o : TxOut) (h : unitdataReq acc e npdu = .ok o) :
    ∀ b ∈ o.sent, fBit b = true → b[1]? = some 0 := by
  have hc : ∀ n m, fBit [comHdr n m false] = false := by
    intro n m
    unfold comHdr
    simp only [fBit, decide_eq_false_iff_not]
    rw [UInt8.toNat_ofNat_of_lt' (by split <;> simp only [Bool.false_eq_true, if_false] <;> show _ < 256 <;> omega)]
    split <;> simp only [Bool.false_eq_true, if_false] <;> omega
  have hfr : ∀ e k rest, fBit (fragPdu e k rest).2 = true → (fragPdu e k rest).2[1]? = some 0 := by
    intro e k rest hb
    unfold fragPdu at hb ⊢
    dsimp only at hb ⊢
    by_cases hk : (k == 0) = true
    · rw [hk]; rfl
    · rw [Bool.not_eq_true] at hk
      rw [hk] at hb
      exact absurd (hb.symm.trans (hc _ _)) (by decide)
  have hsf : ∀ fuel i k rest o, sendFrags acc e fuel i k rest = .ok o → ∀ b ∈ o.sent, fBit b = true → b[1]? = some 0 := by
    intro fuel
    induction fuel with
    | zero => intro i k rest o h b hb; injection h with h; subst h; cases hb
    | succ n ih =>
      intro i k rest o h b hb hf
      rw [sendFrags] at h
      split at h
      · cases h
      · split at h
        · injection h with h; subst h
          rw [List.mem_singleton] at hb; subst hb; exact hfr _ _ _ hf
        · split at h
          · injection h with h; subst h
            rw [List.mem_singleton] at hb; subst hb; exact hfr _ _ _ hf
          · split at h
            · rename_i o' ho
              injection h with h; subst h
              rcases List.mem_cons.1 hb with rfl | hb
              · exact hfr _ _ _ hf
              · exact ih _ _ _ _ ho b hb hf
            · rename_i hne
              exact absurd h (hne o)
  unfold unitdataReq at h
  split at h
  · cases h
  · split at h
    · cases h
    · split at h
      · exact hsf _ _ _ _ _ h
      · intro b hb hf
        split at h <;>
        · injection h with h; subst h
          rw [List.mem_singleton] at hb; subst hb; rfl

/-- A packet marked as compressed is handed up like one that is not. -/
example : withComps [0x10] [snUnitdata 5 0 0 0 [0x45, 1]] = [snUnitdata 5 0 0 1 [0x45, 1]] ∧
    handed (rxRun {} [snUnitdata 5 0 0 1 [0x45, 1]]) = .ok [[0x45, 1]] := ⟨by decide, by decide +kernel⟩

/-- A sent packet with a first segment. -/
example : ∃ o, unitdataReq (fun _ => true) ⟨5, 500, 0⟩ [0x45, 1] = .ok o ∧ ∃ b ∈ o.sent, fBit b = true :=
  ⟨_, rfl, _, List.mem_cons_self, by decide⟩

end Verif.Props
