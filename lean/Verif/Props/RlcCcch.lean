import Verif.Rlc.CcchLemmas

/-!
# C39, C106: messages on the common control channel
-/
namespace Verif.Props
open Verif.Rlc Verif.Csn1 Verif.Spec

/-! ## C39 -/

/-- An assignment taken by an uplink TBF reads no memory. -/
theorem c39_ul (env : UlEnv) (t : UlTbf) (m : ImmAss) (fn tn : Nat) :
    t.rxImmAss env m fn tn ≠ .ub .outOfBounds := by
  have hst : ∀ (s : StartTime) f, s.toFn env fn = .ub f → f = .assertFail := by
    intro s f h
    cases s with
    | abs a b c =>
      simp only [StartTime.toFn] at h
      split at h
      · cases h
      · cases h; rfl
    | rel k =>
      simp only [StartTime.toFn, kToFn] at h
      split at h
      · cases h
      · cases h; rfl
  have hso : ∀ (s : Option StartTime) f, startFn? env fn s = .ub f → f = .assertFail := by
    intro s f h
    unfold startFn? at h
    split at h
    · cases h
    · split at h
      · cases h
      · cases h
      · rename_i h'; cases h; exact hst _ _ h'
  have hh : ∀ f, t.handleImmAss env fn tn m = .ub f → f = .assertFail := by
    intro f h
    cases m with
    | egprs => cases h
    | single s =>
      unfold UlTbf.handleImmAss at h
      dsimp only at h
      split at h
      · cases h
      · cases h
      · rename_i h'; cases h; exact hst _ _ h'
    | dynamic a b s =>
      unfold UlTbf.handleImmAss at h
      dsimp only at h
      split at h
      · cases h
      · cases h
      · rename_i h'; cases h; exact hso _ _ h'
    | fixed a s =>
      unfold UlTbf.handleImmAss at h
      dsimp only at h
      split at h
      · cases h
      · cases h
      · rename_i h'; cases h; exact hso _ _ h'
  unfold UlTbf.rxImmAss
  split
  · split
    · split <;> (intro h; cases h)
    · intro h; cases h
    · intro h; cases h
    · rename_i h'
      intro h; cases h
      cases hh _ h'
  · intro h; cases h

theorem c39_immAssUl (env : CcchEnv) (m : ImmAss) (fn ts : Nat) : ∀ es,
    immAssUl env m fn ts es ≠ .ub .outOfBounds
  | [] => by intro h; cases h
  | g :: gs => by
    unfold immAssUl
    split
    · unfold ulDispatch
      split
      · rename_i hd
        split at hd <;> (intro h; cases h)
      · intro h; cases h
      · rename_i hd
        split at hd
        · cases hd
        · split at hd
          · cases hd
          · cases hd
          · rename_i hu
            cases hd
            intro h; cases h
            exact c39_ul _ _ _ _ _ hu
    · split
      · intro h; cases h
      · intro h; cases h
      · rename_i hu
        intro h; cases h
        exact c39_immAssUl env m fn ts gs hu

theorem c39_decodeAt (b : Octets) (hb : b.length = 23) (m : Nat) (hm : m < 256) (junk : Mem) :
    ∃ r, decodeAt b (12 + m) (iaRestLen m) t_IA_RestOctets 80 junk = .ok r ∧ ∀ f, r ≠ .ub f := by
  unfold decodeAt iaRestLen macBlockLen
  by_cases h : m ≤ 11
  · have e : (23 + 2 ^ 64 - (12 + m)) % 2 ^ 64 = 11 - m := by omega
    rw [e]
    dsimp only
    rw [if_neg (by omega), rdN_of_le (by omega)]
    exact ⟨_, rfl, (c99_immAss _ _ _ (by omega)).1⟩
  · dsimp only
    rw [if_pos (by omega)]
    exact ⟨_, rfl, by intro f hf; cases hf⟩

theorem rd_byte {b : Octets} {i n : Nat} (h : rd b i = .ok n) : n < 256 := by
  unfold rd at h
  split at h
  · cases h; exact UInt8.toNat_lt _
  · cases h

theorem c39_channel (b : Octets) (hb : b.length = 23) : ∃ e, iaChannel b = .ok e := by
  have r : ∀ i, i < 23 → rd b i = .ok (b.getD i 0).toNat := by
    intro i hi
    rw [rd_of_lt (by omega), List.getD_eq_getElem?_getD, List.getElem?_eq_getElem (by omega)]
    rfl
  unfold iaChannel
  rw [r 4 (by omega), r 5 (by omega), r 6 (by omega), r 10 (by omega), r 11 (by omega)]
  simp only [Res.bind_ok]
  split
  · split <;> exact ⟨_, rfl⟩
  · rw [rdN_of_le (by omega)]
    exact ⟨_, rfl⟩

theorem ret_ne_ub (s : CcchSt) (rc : CcchRc) (f : Fault) : s.ret rc ≠ .ub f := by
  intro h; cases h

/-- **C39**.  Whatever the 23 octets of an immediate assignment, in particular its mobile allocation length, and
whatever the state and the surroundings: nothing outside the message is read (and nothing outside the decoded
structure is written). -/
theorem c39_imm_ass (env : CcchEnv) (s : CcchSt) (b : Octets) (fn : Nat) (hb : b.length = 23) :
    handleImmAssMsg env s b fn ≠ .ub .outOfBounds := by
  unfold handleImmAssMsg
  have r : ∀ i, i < 23 → ∃ n, rd b i = .ok n ∧ n < 256 := by
    intro i hi
    exact ⟨_, rd_of_lt (by omega), UInt8.toNat_lt _⟩
  obtain ⟨m, hm, hlt⟩ := r 11 (by omega)
  obtain ⟨c, hc, -⟩ := r 4 (by omega)
  rw [hm, hc]
  simp only [Res.bind_ok]
  split
  · obtain ⟨d, hd, hub⟩ := c39_decodeAt b hb m hlt env.junk
    rw [hd]
    simp only [Res.bind_ok]
    split
    · rename_i h; exact absurd rfl (hub _)
    · exact ret_ne_ub _ _ _
    · unfold immAssDecoded
      obtain ⟨e, he⟩ := c39_channel b hb
      rw [he]
      cases e with
      | none => exact ret_ne_ub _ _ _
      | some e =>
        dsimp only
        split
        · split
          · intro h; cases h
          · intro h; cases h
          · rename_i hdis
            intro h; cases h
            unfold immAssDispatch at hdis
            split at hdis
            · cases hdis
            · cases hdis
            · cases hdis
            · split at hdis
              · cases hdis
              · cases hdis
              · rename_i hu; cases hdis
                exact c39_immAssUl _ _ _ _ _ hu
        · intro h; cases h
  · exact ret_ne_ub _ _ _

/-- A mobile allocation length of 255 is met by real octets: this message is refused. -/
example : (match handleImmAssMsg ⟨⟨fun a _ => a, 15⟩, fun _ => true, fun _ => none, true, fun _ => 0xff⟩ ⟨[], ⟨fun _ => 0, 0, 0⟩⟩
    ([0x2d, 0x06, 0x3f, 0x10, 0x0f, 0xe3, 0x67, 0x7f, 0x2c, 0x91, 0x00, 0xff] ++ List.replicate 11 0x2b) 0 with
    | .ok r => decide (r.rc = .csn (-5)) && r.out == []
    | _ => false) = true := by decide +kernel

/-! ## C106 -/

/-- A paging request type 1 the standard allows: 23 octets, at least two of them rest octets, no group call
information. -/
structure Page1Ok (env : CcchEnv) (mi1 : Octets) (mi2 : Option Octets) (rest : Octets) (id1 id2 : MobId) : Prop where
  size : 5 + mi1.length + (secondId mi2).length + rest.length = 23
  two : 2 ≤ rest.length
  noGroupCall : isH (octBits rest) (p1GroupCall (octBits rest)) = false
  first : env.mi mi1 = some id1
  second : match mi2 with
    | none => id2 = .other
    | some m => env.mi m = some id2

/-- **C106**, full statement.  A paging request makes RLC/MAC indicate a page for exactly the mobile stations with
the identities that the message marks as paged for packet services, and nothing else. -/
def C106Statement : Prop :=
  ∀ (env : CcchEnv) (s : CcchSt) (mode : UInt8) (mi1 : Octets) (mi2 : Option Octets) (rest : Octets) (id1 id2 : MobId)
    (fn : Nat), Page1Ok env mi1 mi2 rest id1 id2 →
    ∃ r, ccchDataInd env s (pagingRequest1 mode mi1 mi2 rest) fn = .ok r ∧ r.st = s ∧
      r.out = (if isH (octBits rest) (p1GroupCall (octBits rest) + 1) then pagesFor s.es id1 else []) ++
        (if isH (octBits rest) (p1GroupCall (octBits rest) + 2) then pagesFor s.es id2 else [])

/-- A mobile station with no P-TMSI yet, as RLC/MAC makes one for ATTACH REQUEST. -/
def c106_noPtmsi : CcchSt := ⟨[⟨⟨0, 0x78123456, noTlli, 0xffffffff, []⟩, none⟩], ⟨fun _ => 0, 0, 0⟩⟩

/-- A decoder of identities: TMSIs and the rest. -/
def c106_env : CcchEnv :=
  ⟨⟨fun a _ => a, 15⟩, fun _ => true,
   fun o => match o with
     | [0xf4, a, b, c, d] => some (.tmsi (a.toNat * 16777216 + b.toNat * 65536 + c.toNat * 256 + d.toNat))
     | _ => some .other,
   true, fun _ => 0⟩

/-- The outputs of a handler, if it returns. -/
def outsOf : Res CcchRet → Option (List CcchOut)
  | .ok r => some r.out
  | _ => none

/-- **C106 is violated**: a page for the TMSI with all bits set reaches a mobile station that has no P-TMSI. -/
theorem c106_violated : ¬ C106Statement := by
  intro h
  obtain ⟨r, hr, -, ho⟩ := h c106_env c106_noPtmsi 0x20 [0xf4, 0xff, 0xff, 0xff, 0xff] none
    ([0x23] ++ List.replicate 12 0x2b) (.tmsi 0xffffffff) .other 0 ⟨by decide, by decide, by decide +kernel, rfl, rfl⟩
  have h1 : outsOf (ccchDataInd c106_env c106_noPtmsi (pagingRequest1 0x20 [0xf4, 0xff, 0xff, 0xff, 0xff] none
    ([0x23] ++ List.replicate 12 0x2b)) 0) = some [.page 0 0x78123456] := by decide +kernel
  rw [hr] at h1
  have h2 : r.out = [.page 0 0x78123456] := by
    unfold outsOf at h1; injection h1
  rw [h2] at ho
  revert ho
  decide +kernel

/-- **C106 is violated** in a second way: when the first identity is neither an IMSI nor a TMSI but marked as paged
for packet services, the page for the second is lost. -/
theorem c106_violated_second : ¬ C106Statement := by
  intro h
  obtain ⟨r, hr, -, ho⟩ := h c106_env ⟨[⟨⟨0, 0xc0000001, noTlli, 1, []⟩, none⟩], ⟨fun _ => 0, 0, 0⟩⟩ 0x20 [0xf0]
    (some [0xf4, 0, 0, 0, 1]) ([0x27] ++ List.replicate 9 0x2b) .other (.tmsi 1) 0
    ⟨by decide, by decide, by decide +kernel, rfl, rfl⟩
  have h1 : outsOf (ccchDataInd c106_env ⟨[⟨⟨0, 0xc0000001, noTlli, 1, []⟩, none⟩], ⟨fun _ => 0, 0, 0⟩⟩
    (pagingRequest1 0x20 [0xf0] (some [0xf4, 0, 0, 0, 1]) ([0x27] ++ List.replicate 9 0x2b)) 0) = some [] := by
    decide +kernel
  rw [hr] at h1
  have h2 : r.out = [] := by
    unfold outsOf at h1; injection h1
  rw [h2] at ho
  revert ho
  decide +kernel

theorem ofNat_len {o : Octets} (h : o.length ≤ 23) : (UInt8.ofNat o.length).toNat = o.length := by
  rw [UInt8.toNat_ofNat']; omega

theorem pseudo_ne (n : Nat) : (pseudoLength n).toNat ≠ 22 := by
  unfold pseudoLength
  rw [UInt8.toNat_ofNat']; omega

/-- **C106** (partial).  The full statement holds when the identities paged for packet services are an IMSI or a
TMSI not all ones, each belonging to at most one mobile station; and when rest octets directly behind the first identity do
not start with the tag of a second one.  Missing: the cases of the two violations, identities shared by mobile
stations (only the first is paged). -/
theorem c106_partial (env : CcchEnv) (s : CcchSt) (mode : UInt8) (mi1 : Octets) (mi2 : Option Octets) (rest : Octets)
    (id1 id2 : MobId) (fn : Nat) (ok : Page1Ok env mi1 mi2 rest id1 id2)
    (h1 : isH (octBits rest) (p1GroupCall (octBits rest) + 1) = true → Pageable s.es id1)
    (h2 : id2 = .other ∨ Pageable s.es id2) (ht : mi2 = none → rest.head? ≠ some 0x17) :
    ∃ r, ccchDataInd env s (pagingRequest1 mode mi1 mi2 rest) fn = .ok r ∧ r.st = s ∧
      r.out = (if isH (octBits rest) (p1GroupCall (octBits rest) + 1) then pagesFor s.es id1 else []) ++
        (if isH (octBits rest) (p1GroupCall (octBits rest) + 2) then pagesFor s.es id2 else []) := by
  obtain ⟨hsize, htwo, hg, hm1, hm2⟩ := ok
  generalize hb : pagingRequest1 mode mi1 mi2 rest = b
  have hb' := hb.symm
  unfold pagingRequest1 at hb'
  have hlen : b.length = 23 := by rw [hb']; simp only [List.length_append, List.length_cons, List.length_nil] <;> omega
  have r0 : rd b 0 = .ok _ := rd_mid (pre := []) hb' rfl
  have r2 : rd b 2 = .ok 0x21 := rd_mid (pre := [_, _]) hb' rfl
  have r4 : rd b 4 = .ok mi1.length := by
    have h : rd b 4 = .ok _ := rd_mid (pre := [_, _, _, _]) hb' rfl
    rw [h, ofNat_len (by omega)]
  have hmi : miAt env b 5 mi1.length = .ok (some id1) := by
    have h : rdN b 5 mi1.length = .ok mi1 := rdN_mid (pre := [_, _, _, _, _]) (mid := mi1) hb' rfl rfl
    unfold miAt macBlockLen
    rw [if_neg (by omega), h]
    dsimp only
    rw [hm1]
  unfold ccchDataInd
  rw [r2]
  simp only [Res.bind_ok]
  rw [if_neg (by decide), if_pos trivial]
  unfold handlePag1
  rw [r0]
  simp only [Res.bind_ok]
  rw [if_neg (pseudo_ne _), r4]
  simp only [Res.bind_ok]
  rw [hmi]
  dsimp only
  unfold page1Tail macBlockLen
  rw [if_neg (by omega)]
  cases mi2 with
  | none =>
    dsimp only at hm2
    subst hm2
    have hsz : (secondId none).length = 0 := rfl
    rw [show secondId none = [] from rfl, List.nil_append] at hb'
    have hsplit : b = ([pseudoLength (4 + mi1.length + ([] : Octets).length), 0x06, 0x21, mode, UInt8.ofNat mi1.length] ++ mi1) ++ rest := by
      rw [List.append_assoc]; exact hb'
    cases hrest : rest with
    | nil => rw [hrest] at htwo; simp at htwo
    | cons x xs =>
      rw [← hrest]
      have rt : rd b (5 + mi1.length) = .ok x.toNat :=
        rd_mid (pre := [pseudoLength (4 + mi1.length + ([] : Octets).length), 0x06, 0x21, mode, UInt8.ofNat mi1.length] ++ mi1) (post := xs)
          (by rw [← hrest]; exact hsplit) (by simp only [List.length_append, List.length_cons, List.length_nil] <;> omega)
      rw [rt]
      simp only [Res.bind_ok]
      have hx : x.toNat ≠ 0x17 := by
        intro h
        refine ht rfl ?_
        rw [hrest]
        show some x = _
        rw [show x = 0x17 from UInt8.toNat_inj.mp h]
      rw [if_neg hx]
      exact page1Rest_out s id1 .other hsplit
        (by simp only [List.length_append, List.length_cons, List.length_nil] <;> omega) hlen htwo hg h1 h2
  | some m =>
    dsimp only at hm2
    have hsz : (secondId (some m)).length = m.length + 2 := by
      show ([_, _] ++ m).length = _
      simp only [List.length_append, List.length_cons, List.length_nil] <;> omega
    rw [hsz] at hsize
    have hsplit : b = ([pseudoLength (4 + mi1.length + (secondId (some m)).length), 0x06, 0x21, mode, UInt8.ofNat mi1.length] ++ mi1) ++
        ((0x17 : UInt8) :: UInt8.ofNat m.length :: (m ++ rest)) := by
      rw [List.append_assoc]; exact hb'
    have rt : rd b (5 + mi1.length) = .ok 0x17 :=
      rd_mid hsplit (by simp only [List.length_append, List.length_cons, List.length_nil] <;> omega)
    rw [rt]
    simp only [Res.bind_ok]
    rw [if_pos trivial]
    unfold page1Second macBlockLen
    rw [if_neg (by omega)]
    have hsplit2 : b = ([pseudoLength (4 + mi1.length + (secondId (some m)).length), 0x06, 0x21, mode, UInt8.ofNat mi1.length] ++ mi1 ++ [(0x17 : UInt8)]) ++
        (UInt8.ofNat m.length :: (m ++ rest)) := by
      rw [List.append_assoc]; exact hsplit
    have hsplit3 : b = ([pseudoLength (4 + mi1.length + (secondId (some m)).length), 0x06, 0x21, mode, UInt8.ofNat mi1.length] ++ mi1 ++ [(0x17 : UInt8)] ++ [UInt8.ofNat m.length]) ++
        (m ++ rest) := by
      rw [List.append_assoc]; exact hsplit2
    have hsplit4 : b = ([pseudoLength (4 + mi1.length + (secondId (some m)).length), 0x06, 0x21, mode, UInt8.ofNat mi1.length] ++ mi1 ++ [(0x17 : UInt8)] ++ [UInt8.ofNat m.length] ++ m) ++
        rest := by
      rw [List.append_assoc]; exact hsplit3
    have rl : rd b (5 + mi1.length + 1) = .ok m.length := by
      rw [rd_mid hsplit2 (by simp only [List.length_append, List.length_cons, List.length_nil] <;> omega), ofNat_len (by omega)]
    rw [rl]
    simp only [Res.bind_ok]
    have hmi2 : miAt env b (5 + mi1.length + 2) m.length = .ok (some id2) := by
      unfold miAt macBlockLen
      rw [if_neg (by omega), rdN_mid hsplit3 (by simp only [List.length_append, List.length_cons, List.length_nil] <;> omega) rfl]
      dsimp only
      rw [hm2]
    rw [hmi2]
    dsimp only
    exact page1Rest_out s id1 id2 hsplit4
      (by simp only [List.length_append, List.length_cons, List.length_nil] <;> omega) hlen htwo hg h1 h2

/-- **C106** (partial), for the third identity of a paging request type 2. -/
theorem c106_type2_partial (env : CcchEnv) (s : CcchSt) (mode : UInt8) (tmsis mi3 rest : Octets) (id3 : MobId) (fn : Nat)
    (ht : tmsis.length = 8) (hsize : 14 + mi3.length + rest.length = 23) (hr : 3 ≤ rest.length)
    (hm : env.mi mi3 = some id3) (hp : isH (octBits rest) (p2Indication (octBits rest)) = true → Pageable s.es id3) :
    ∃ r, ccchDataInd env s (pagingRequest2 mode tmsis mi3 rest) fn = .ok r ∧ r.st = s ∧
      r.out = if isH (octBits rest) (p2Indication (octBits rest)) then pagesFor s.es id3 else [] := by
  generalize hb : pagingRequest2 mode tmsis mi3 rest = b
  have hb' := hb.symm
  unfold pagingRequest2 at hb'
  have hlen : b.length = 23 := by
    rw [hb']; simp only [List.length_append, List.length_cons, List.length_nil] <;> omega
  have r0 : rd b 0 = .ok _ := rd_mid (pre := []) hb' rfl
  have r2 : rd b 2 = .ok 0x22 := rd_mid (pre := [_, _]) hb' rfl
  have hsplit : b = ([pseudoLength (3 + tmsis.length + 2 + mi3.length), 0x06, 0x22, mode] ++ tmsis) ++
      ((0x17 : UInt8) :: UInt8.ofNat mi3.length :: (mi3 ++ rest)) := by
    rw [List.append_assoc]; exact hb'
  have hsplit2 : b = ([pseudoLength (3 + tmsis.length + 2 + mi3.length), 0x06, 0x22, mode] ++ tmsis ++ [(0x17 : UInt8)]) ++
      (UInt8.ofNat mi3.length :: (mi3 ++ rest)) := by
    rw [List.append_assoc]; exact hsplit
  have hsplit3 : b = ([pseudoLength (3 + tmsis.length + 2 + mi3.length), 0x06, 0x22, mode] ++ tmsis ++ [(0x17 : UInt8)] ++
      [UInt8.ofNat mi3.length]) ++ (mi3 ++ rest) := by
    rw [List.append_assoc]; exact hsplit2
  have hsplit4 : b = ([pseudoLength (3 + tmsis.length + 2 + mi3.length), 0x06, 0x22, mode] ++ tmsis ++ [(0x17 : UInt8)] ++
      [UInt8.ofNat mi3.length] ++ mi3) ++ rest := by
    rw [List.append_assoc]; exact hsplit3
  have r12 : rd b 12 = .ok 0x17 :=
    rd_mid hsplit (by simp only [List.length_append, List.length_cons, List.length_nil] <;> omega)
  have r13 : rd b 13 = .ok mi3.length := by
    rw [rd_mid hsplit2 (by simp only [List.length_append, List.length_cons, List.length_nil] <;> omega), ofNat_len (by omega)]
  have hmi : miAt env b 14 mi3.length = .ok (some id3) := by
    unfold miAt macBlockLen
    rw [if_neg (by omega), rdN_mid hsplit3 (by simp only [List.length_append, List.length_cons, List.length_nil] <;> omega) rfl]
    dsimp only
    rw [hm]
  unfold ccchDataInd
  rw [r2]
  simp only [Res.bind_ok]
  rw [if_neg (by decide), if_neg (by decide), if_pos trivial]
  unfold handlePag2
  rw [r0]
  simp only [Res.bind_ok]
  rw [if_neg (pseudo_ne _), r12]
  simp only [Res.bind_ok]
  rw [if_neg (by decide), r13]
  simp only [Res.bind_ok]
  rw [hmi]
  dsimp only
  unfold page2Rest macBlockLen
  rw [if_neg (by omega), decodeAt_end _ _ _ hsplit4
    (by simp only [List.length_append, List.length_cons, List.length_nil] <;> omega) (by omega) (by omega)]
  obtain ⟨t, et, t1⟩ := p2_decode (octBits rest) rest.length (fun _ => 0) hr
  simp only [Res.bind_ok]
  rw [et]
  dsimp only
  rw [t1]
  by_cases hq : isH (octBits rest) (p2Indication (octBits rest)) = true
  · rw [if_pos hq, if_pos rfl, if_pos hq, pageOne_eq (hp hq)]
    exact ⟨_, rfl, rfl, rfl⟩
  · rw [if_neg hq, if_neg (by decide), if_neg hq]
    exact ⟨_, rfl, rfl, rfl⟩

/-- The hypotheses are met: two mobile stations, both paged in one message. -/
example : outsOf (ccchDataInd c106_env ⟨[⟨⟨0, 0xc0000001, noTlli, 1, []⟩, none⟩, ⟨⟨1, 0xc0000002, noTlli, 2, []⟩, none⟩],
    ⟨fun _ => 0, 0, 0⟩⟩ (pagingRequest1 0x20 [0xf4, 0, 0, 0, 2] (some [0xf4, 0, 0, 0, 1]) ([0x27] ++ List.replicate 5 0x2b)) 0)
    = some [.page 1 0xc0000002, .page 0 0xc0000001] := by decide +kernel

end Verif.Props
