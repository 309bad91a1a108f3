import Verif.Props.RlcCcch
import Verif.Csn1.IaLemmas

/-!
# C107, C108, C109: immediate assignments; aborts by messages on the common control channel
-/
namespace Verif.Props
open Verif.Rlc Verif.Csn1 Verif.Spec

/-! ## C107 -/

/-- The request reference of an immediate assignment: octets 7 to 9. -/
def requestReference (b : Octets) : Octets := (b.drop 7).take 3

/-- **C107**, full statement.  An immediate assignment whose request reference is not that of a channel request made
by one of the mobile stations, and which names no TLLI of theirs, has no effect. -/
def C107Statement : Prop :=
  ∀ (env : CcchEnv) (s : CcchSt) (b : Octets) (fn : Nat) (asked : List Octets),
    b.length = 23 → requestReference b ∉ asked → (∀ tlli, findTlli s.dir tlli = none) →
    ∀ r, handleImmAssMsg env s b fn = .ok r → r.out = [] ∧ r.st = s

/-- An immediate assignment of a circuit switched channel (SDCCH/8 on timeslot 1) to another mobile station. -/
def c107_other : Octets :=
  immediateAssignment 0x00 [0x41, 0xe0, 0x14] [0x83, 0x12, 0x34] 3 [] (List.replicate 11 0x2b)

/-- **C107 is violated**: with no mobile station at all, an immediate assignment of a circuit switched channel makes
RLC/MAC order the lower layers to leave the common control channel for that channel. -/
theorem c107_violated : ¬ C107Statement := by
  intro h
  have hres : outsOf (handleImmAssMsg c106_env ⟨[], ⟨fun _ => 0, 0, 0⟩⟩ c107_other 0) =
      some [.pdchEst ⟨1, 7, 3, false, 20, 0, 0, []⟩] := by decide +kernel
  cases hr : handleImmAssMsg c106_env ⟨[], ⟨fun _ => 0, 0, 0⟩⟩ c107_other 0 with
  | ok r =>
    have h1 := (h _ _ _ _ [] (by decide) (by decide) (fun _ => rfl) r hr).1
    rw [hr] at hres
    simp only [outsOf, h1] at hres
    cases hres
  | err e => rw [hr] at hres; cases hres
  | ub f => rw [hr] at hres; cases hres

/-- What happens never depends on the request reference: two immediate assignments that differ in it only are
treated alike.  So a waiting mobile station takes the assignment meant for any other. -/
theorem c107_reference_ignored (env : CcchEnv) (s : CcchSt) (mode ta : UInt8) (chan ref ref' ma rest : Octets) (fn : Nat)
    (hc : chan.length = 3) (hr : ref.length = 3) (hr' : ref'.length = 3) :
    handleImmAssMsg env s (immediateAssignment mode chan ref ta ma rest) fn =
      handleImmAssMsg env s (immediateAssignment mode chan ref' ta ma rest) fn := by
  generalize hb : immediateAssignment mode chan ref ta ma rest = b
  generalize hb2 : immediateAssignment mode chan ref' ta ma rest = b'
  -- both agree outside the octets 7 to 9
  have lo : b.take 7 = b'.take 7 := by
    rw [← hb, ← hb2]; unfold immediateAssignment
    obtain ⟨c0, c1, c2, rfl⟩ : ∃ a b c, chan = [a, b, c] := by
      match chan, hc with
      | [a, b, c], _ => exact ⟨a, b, c, rfl⟩
    rfl
  have hi : b.drop 10 = b'.drop 10 := by
    rw [← hb, ← hb2]; unfold immediateAssignment
    obtain ⟨c0, c1, c2, rfl⟩ : ∃ a b c, chan = [a, b, c] := by
      match chan, hc with
      | [a, b, c], _ => exact ⟨a, b, c, rfl⟩
    obtain ⟨r0, r1, r2, rfl⟩ : ∃ a b c, ref = [a, b, c] := by
      match ref, hr with
      | [a, b, c], _ => exact ⟨a, b, c, rfl⟩
    obtain ⟨q0, q1, q2, rfl⟩ : ∃ a b c, ref' = [a, b, c] := by
      match ref', hr' with
      | [a, b, c], _ => exact ⟨a, b, c, rfl⟩
    rfl
  have hlen : b.length = b'.length := by
    rw [← hb, ← hb2]; unfold immediateAssignment
    simp only [List.length_append, List.length_cons, List.length_nil, hr, hr']
  have g_lo : ∀ i, i < 7 → b[i]? = b'[i]? := by
    intro i hi
    rw [← List.getElem?_take_of_lt hi, lo, List.getElem?_take_of_lt hi]
  have g_hi : ∀ i, 10 ≤ i → b[i]? = b'[i]? := by
    intro i hx
    obtain ⟨j, rfl⟩ := Nat.exists_eq_add_of_le hx
    rw [← List.getElem?_drop, ← List.getElem?_drop, hi]
  have rdlo : ∀ i, i < 7 → rd b i = rd b' i := fun i hi => by unfold rd; rw [g_lo i hi]
  have rdhi : ∀ i, 10 ≤ i → rd b i = rd b' i := fun i hi => by unfold rd; rw [g_hi i hi]
  have rdn : ∀ i n, 10 ≤ i → rdN b i n = rdN b' i n := by
    intro i n hx
    unfold rdN
    obtain ⟨j, rfl⟩ := Nat.exists_eq_add_of_le hx
    rw [hlen, ← List.drop_drop, ← List.drop_drop, hi]
  have hdec : ∀ m, decodeAt b (12 + m) (iaRestLen m) t_IA_RestOctets 80 env.junk =
      decodeAt b' (12 + m) (iaRestLen m) t_IA_RestOctets 80 env.junk := by
    intro m; unfold decodeAt; rw [rdn _ _ (by omega)]
  have hch : iaChannel b = iaChannel b' := by
    unfold iaChannel
    rw [rdlo 4 (by omega), rdlo 5 (by omega), rdlo 6 (by omega), rdhi 10 (by omega), rdhi 11 (by omega)]
    congr; funext c; congr; funext d; congr; funext e; congr; funext ta; congr; funext m
    rw [rdn _ _ (by omega)]
  unfold handleImmAssMsg immAssDecoded
  rw [rdhi 11 (by omega), rdlo 4 (by omega), hch]
  congr; funext m; congr; funext c
  rw [hdec]

/-- What an immediate assignment can change: the uplink TBF of one mobile station that waits for one; names and
number of the mobile stations stay. -/
theorem immAssUl_shape (env : CcchEnv) (m : ImmAss) (fn ts : Nat) : ∀ es es' o rc,
    immAssUl env m fn ts es = .ok (es', o, rc) →
    (es' = es ∧ o = [] ∧ ∀ g ∈ es, g.waits = false) ∨
    ∃ pre g g' post, es = pre ++ g :: post ∧ es' = pre ++ g' :: post ∧ g.waits = true ∧ (∀ x ∈ pre, x.waits = false) ∧
      g'.names = g.names ∧ ∀ x ∈ o, ∃ y, x = .ul g.names.serial y
  | [], es', o, rc, h => by
    cases h
    exact Or.inl ⟨rfl, rfl, fun g hg => by cases hg⟩
  | g :: gs, es', o, rc, h => by
    unfold immAssUl at h
    by_cases hw : g.waits
    · rw [if_pos hw] at h
      refine Or.inr ?_
      split at h
      · rename_i g' o' hd
        cases h
        refine ⟨[], g, g', gs, rfl, rfl, hw, (fun x hx => nomatch hx), ?_⟩
        unfold ulDispatch at hd
        split at hd
        · cases hd; exact ⟨rfl, fun x hx => by cases hx⟩
        · split at hd
          · cases hd
            refine ⟨rfl, fun x hx => ?_⟩
            obtain ⟨y, -, rfl⟩ := List.mem_map.mp hx
            exact ⟨y, rfl⟩
          · cases hd
          · cases hd
      · cases h
      · cases h
    · rw [if_neg hw] at h
      split at h
      · rename_i gs' o' rc' hd
        cases h
        have hf : g.waits = false := by simpa using hw
        rcases immAssUl_shape env m fn ts gs gs' o rc hd with ⟨h1, h2, h3⟩ | ⟨pre, x, x', post, h1, h2, h3, h4, h5⟩
        · refine Or.inl ⟨by rw [h1], h2, fun y hy => ?_⟩
          rcases List.mem_cons.mp hy with rfl | hy
          · exact hf
          · exact h3 y hy
        · refine Or.inr ⟨g :: pre, x, x', post, by rw [h1]; rfl, by rw [h2]; rfl, h3, fun y hy => ?_, h5⟩
          rcases List.mem_cons.mp hy with rfl | hy
          · exact hf
          · exact h4 y hy
      · cases h
      · cases h

/-- **C107** (partial).  What does hold of every immediate assignment that is handled: beyond the order to establish
the channel it changes nothing unless a mobile station waits for an immediate assignment, in which case it changes
the uplink TBF of the first that waits and of no other; a downlink TBF is started only for a mobile station the message
names by its TLLI; at most one order to establish a channel is given, and first.  Missing: the request reference
(violated), and nothing is sent when the message is for no mobile station here (violated). -/
theorem c107_partial (env : CcchEnv) (s : CcchSt) (b : Octets) (fn : Nat) (r : CcchRet)
    (h : handleImmAssMsg env s b fn = .ok r) :
    (r.out = [] ∧ r.st = s) ∨
    ∃ e rest, r.out = .pdchEst e :: rest ∧ r.st.si13 = s.si13 ∧
      ((r.st = s ∧ rest = []) ∨
       (r.st = s ∧ ∃ tlli n, findTlli s.dir tlli = some n ∧ rest = [.dlStart n.serial e.ts fn]) ∨
       (∃ pre g g' post, s.es = pre ++ g :: post ∧ r.st.es = pre ++ g' :: post ∧ g.waits = true ∧
         (∀ x ∈ pre, x.waits = false) ∧ g'.names = g.names ∧ ∀ x ∈ rest, ∃ y, x = .ul g.names.serial y)) := by
  unfold handleImmAssMsg at h
  cases hm : rd b 11 with
  | err e => rw [hm] at h; cases h
  | ub e => rw [hm] at h; cases h
  | ok m =>
  cases hc : rd b 4 with
  | err e => rw [hm, hc] at h; cases h
  | ub e => rw [hm, hc] at h; cases h
  | ok c =>
  rw [hm, hc] at h
  simp only [Res.bind_ok] at h
  by_cases hch : env.chanOk c
  case neg =>
    rw [if_neg hch] at h
    cases h; exact Or.inl ⟨rfl, rfl⟩
  rw [if_pos hch] at h
  cases hd : decodeAt b (12 + m) (iaRestLen m) t_IA_RestOctets 80 env.junk with
  | err e => rw [hd] at h; cases h
  | ub e => rw [hd] at h; cases h
  | ok d =>
  rw [hd] at h
  simp only [Res.bind_ok] at h
  cases d with
  | ub f => cases h
  | fail e => cases h; exact Or.inl ⟨rfl, rfl⟩
  | ok t =>
  dsimp only at h
  unfold immAssDecoded at h
  cases he : iaChannel b with
  | err e => rw [he] at h; cases h
  | ub e => rw [he] at h; cases h
  | ok oe =>
  rw [he] at h
  cases oe with
  | none => cases h; exact Or.inl ⟨rfl, rfl⟩
  | some e =>
  dsimp only at h
  by_cases hk : env.estOk
  case neg =>
    rw [if_neg hk] at h
    cases h
    exact Or.inr ⟨e, [], rfl, rfl, Or.inl ⟨rfl, rfl⟩⟩
  rw [if_pos hk] at h
  cases hx : immAssDispatch env s (iaKind t) fn e.ts with
  | err e => rw [hx] at h; cases h
  | ub e => rw [hx] at h; cases h
  | ok r' =>
  rw [hx] at h
  cases h
  refine Or.inr ⟨e, r'.out, rfl, ?_⟩
  unfold immAssDispatch at hx
  split at hx
  · cases hx; exact ⟨rfl, Or.inl ⟨rfl, rfl⟩⟩
  · cases hx; exact ⟨rfl, Or.inl ⟨rfl, rfl⟩⟩
  · cases hx
    refine ⟨rfl, ?_⟩
    unfold immAssDl
    cases hf : findTlli s.dir _ with
    | none => exact Or.inl ⟨rfl, rfl⟩
    | some n => exact Or.inr (Or.inl ⟨rfl, _, n, hf, rfl⟩)
  · split at hx
    · rename_i es' o rc hu
      cases hx
      refine ⟨rfl, ?_⟩
      rcases immAssUl_shape env _ fn e.ts s.es es' o rc hu with ⟨h1, h2, -⟩ | ⟨pre, g, g', post, h1, h2, h3, h4, h5, h6⟩
      · subst h1 h2
        exact Or.inl ⟨rfl, rfl⟩
      · exact Or.inr (Or.inr ⟨pre, g, g', post, h1, h2, h3, h4, h5, h6⟩)
    · cases hx
    · cases hx

/-! ## C108 -/

/-- The first output of a handler. -/
def firstOut : Res CcchRet → Option CcchOut
  | .ok r => r.out.head?
  | _ => none

/-- **C108**, channel without hopping: the order to establish the channel carries the timeslot, training sequence,
frequency and timing advance of the message. -/
theorem c108_plain (mode ta : UInt8) (ref ma rest : Octets) (tn tsc arfcn : Nat) (htn : tn < 8) (htsc : tsc < 8)
    (ha : arfcn < 1024) (hr : ref.length = 3) :
    iaChannel (immediateAssignment mode (plainChannel tn tsc arfcn) ref ta ma rest) =
      .ok (some ⟨tn, tsc, ta.toNat, false, arfcn, 0, 0, []⟩) := by
  generalize hb : immediateAssignment mode (plainChannel tn tsc arfcn) ref ta ma rest = b
  have hb' := hb.symm
  unfold immediateAssignment plainChannel at hb'
  obtain ⟨r0, r1, r2, rfl⟩ : ∃ a b c, ref = [a, b, c] := by
    match ref, hr with
    | [a, b, c], _ => exact ⟨a, b, c, rfl⟩
  have e4 : rd b 4 = .ok _ := rd_mid (pre := [_, _, _, _]) hb' rfl
  have e5 : rd b 5 = .ok _ := rd_mid (pre := [_, _, _, _, _]) hb' rfl
  have e6 : rd b 6 = .ok _ := rd_mid (pre := [_, _, _, _, _, _]) hb' rfl
  have e10 : rd b 10 = .ok _ := rd_mid (pre := [_, _, _, _, _, _, _, _, _, _]) hb' rfl
  have e11 : rd b 11 = .ok _ := rd_mid (pre := [_, _, _, _, _, _, _, _, _, _, _]) hb' rfl
  unfold iaChannel
  rw [e4, e5, e6, e10, e11]
  simp only [Res.bind_ok]
  have t4 : (UInt8.ofNat (8 + tn)).toNat = 8 + tn := by rw [UInt8.toNat_ofNat']; omega
  have t5 : (UInt8.ofNat (32 * tsc + arfcn / 256)).toNat = 32 * tsc + arfcn / 256 := by rw [UInt8.toNat_ofNat']; omega
  have t6 : (UInt8.ofNat (arfcn % 256)).toNat = arfcn % 256 := by rw [UInt8.toNat_ofNat']; omega
  rw [t4, t5, t6, if_pos (by omega), if_neg (by omega)]
  congr 3
  · omega
  · omega
  · omega

/-- **C108**, channel with hopping: the order carries the timeslot, training sequence, hopping sequence, offset,
timing advance and the mobile allocation of the message, which has at most 8 octets. -/
theorem c108_hopping (mode ta : UInt8) (ref ma rest : Octets) (tn tsc maio hsn : Nat) (htn : tn < 8) (htsc : tsc < 8)
    (hm : maio < 64) (hh : hsn < 64) (hr : ref.length = 3) (hma : ma.length ≤ 8) :
    iaChannel (immediateAssignment mode (hoppingChannel tn tsc maio hsn) ref ta ma rest) =
      .ok (some ⟨tn, tsc, ta.toNat, true, 0, hsn, maio, ma.map UInt8.toNat⟩) := by
  generalize hb : immediateAssignment mode (hoppingChannel tn tsc maio hsn) ref ta ma rest = b
  have hb' := hb.symm
  unfold immediateAssignment hoppingChannel at hb'
  obtain ⟨r0, r1, r2, rfl⟩ : ∃ a b c, ref = [a, b, c] := by
    match ref, hr with
    | [a, b, c], _ => exact ⟨a, b, c, rfl⟩
  have e4 : rd b 4 = .ok _ := rd_mid (pre := [_, _, _, _]) hb' rfl
  have e5 : rd b 5 = .ok _ := rd_mid (pre := [_, _, _, _, _]) hb' rfl
  have e6 : rd b 6 = .ok _ := rd_mid (pre := [_, _, _, _, _, _]) hb' rfl
  have e10 : rd b 10 = .ok _ := rd_mid (pre := [_, _, _, _, _, _, _, _, _, _]) hb' rfl
  have e11 : rd b 11 = .ok _ := rd_mid (pre := [_, _, _, _, _, _, _, _, _, _, _]) hb' rfl
  have t11 : (UInt8.ofNat ma.length).toNat = ma.length := ofNat_len (by omega)
  have e12 : rdN b 12 (min ma.length 8) = .ok ma :=
    rdN_mid (pre := [_, _, _, _, _, _, _, _, _, _, _, _]) (mid := ma) hb' rfl (by omega)
  unfold iaChannel
  rw [e4, e5, e6, e10, e11]
  simp only [Res.bind_ok]
  have t4 : (UInt8.ofNat (8 + tn)).toNat = 8 + tn := by rw [UInt8.toNat_ofNat']; omega
  have t5 : (UInt8.ofNat (32 * tsc + 16 + maio / 4)).toNat = 32 * tsc + 16 + maio / 4 := by
    rw [UInt8.toNat_ofNat']; omega
  have t6 : (UInt8.ofNat (64 * (maio % 4) + hsn)).toNat = 64 * (maio % 4) + hsn := by rw [UInt8.toNat_ofNat']; omega
  rw [t4, t5, t6, t11, if_neg (by omega), e12]
  simp only [Res.bind_ok]
  congr 3
  · omega
  · omega
  · omega
  · omega

/-- **C108**, assignment: an immediate assignment with an uplink assignment that is accepted is applied to the first
mobile station that waits, with the timeslot of the channel and the allocation the standard reads from the rest
octets: TFI, USF and starting time of a dynamic allocation, starting time of a single block. -/
theorem c108_uplink (env : CcchEnv) (s : CcchSt) (b : Octets) (fn m c : Nat) (o : Octets) (t : CSt) (e : PdchEst)
    (pre post : List CcchGre) (g : CcchGre) (tbf : UlTbf)
    (h11 : rd b 11 = .ok m) (h4 : rd b 4 = .ok c) (hchan : env.chanOk c = true) (hest : env.estOk = true)
    (hm : m ≤ 11) (hrest : rdN b (12 + m) (11 - m) = .ok o)
    (hdec : decodeRest (.object 80) t_IA_RestOctets (octBits o) (11 - m) env.junk = .ok t)
    (hul : IsUplinkAssignment (octBits o)) (hch : iaChannel b = .ok (some e))
    (hes : s.es = pre ++ g :: post) (hpre : ∀ x ∈ pre, x.waits = false) (hg : g.ul = some tbf)
    (hw : tbf.ass = .waitImmAss) (tbf' : Option UlTbf) (uo : List UlOut)
    (hrx : tbf.rxImmAss env.ul (uplinkAssignment (octBits o)) fn e.ts = .ok (tbf', uo)) :
    handleImmAssMsg env s b fn =
      .ok ⟨{ s with es := pre ++ { g with ul := tbf' } :: post }, .pdchEst e :: uo.map (.ul g.names.serial), .zero⟩ := by
  have hgw : g.waits = true := by simp only [CcchGre.waits, hg, hw]; rfl
  have hgo : ∀ pre, (∀ x ∈ pre, x.waits = false) →
      immAssUl env (uplinkAssignment (octBits o)) fn e.ts (pre ++ g :: post) =
        .ok (pre ++ { g with ul := tbf' } :: post, uo.map (.ul g.names.serial), .zero) := by
    intro pre
    induction pre with
    | nil =>
      intro _
      rw [List.nil_append]
      unfold immAssUl ulDispatch
      rw [if_pos hgw, hg]
      dsimp only
      rw [hrx]
      rfl
    | cons x xs ih =>
      intro hx
      rw [List.cons_append]
      unfold immAssUl
      rw [if_neg (by rw [hx x (List.mem_cons_self ..)]; decide), ih fun y hy => hx y (List.mem_cons_of_mem _ hy)]
      rfl
  have elen : iaRestLen m = 11 - m := by unfold iaRestLen macBlockLen; omega
  unfold handleImmAssMsg
  rw [h11, h4]
  simp only [Res.bind_ok]
  rw [if_pos hchan, elen]
  have hda : decodeAt b (12 + m) (11 - m) t_IA_RestOctets 80 env.junk = .ok (.ok t) := by
    unfold decodeAt
    rw [if_neg (by omega), hrest]
    dsimp only
    rw [hdec]
  rw [hda]
  simp only [Res.bind_ok]
  unfold immAssDecoded
  rw [hch]
  dsimp only
  rw [if_pos hest, ia_uplink hdec hul]
  unfold immAssDispatch
  rw [hes]
  dsimp only
  rw [hgo pre hpre]

/-- A TBF that waits for an immediate assignment. -/
def waitingTbf : UlTbf := { UlTbf.fresh with st := .waitAssign, ass := .waitImmAss }

/-- A dynamic allocation with TFI 9, USF 5 and no starting time, on timeslot 3, ARFCN 871: the hypotheses of
`c108_uplink` are met. -/
example : (match handleImmAssMsg c106_env ⟨[⟨⟨0, 0xc0000001, noTlli, 1, []⟩, some waitingTbf⟩], ⟨fun _ => 0, 0, 0⟩⟩
    (immediateAssignment 0x10 (plainChannel 3 7 871) [0x7f, 0x2c, 0x91] 2 []
      ([0xca, 0x4a, 0x00, 0x00, 0x0b] ++ List.replicate 6 0x2b)) 0 with
    | .ok r => decide (r.out = [.pdchEst ⟨3, 7, 2, false, 871, 0, 0, []⟩]) &&
        decide (r.st.es.map (fun g => g.ul.map fun t => (t.st, t.cur.tfi, t.cur.ts)) =
          [some (UlSt.flow, 9, [none, none, none, some 5, none, none, none, none])])
    | _ => false) = true := by decide +kernel

/-! ## C109 -/

/-- **C109**, full statement.  No message on the common control channel aborts the process or makes it touch memory
it should not. -/
def C109Statement : Prop :=
  ∀ (env : CcchEnv) (s : CcchSt) (b : Octets) (fn : Nat), b.length = 23 → (ccchDataInd env s b fn).Safe

/-- Did the handler fault? -/
def faults : Res CcchRet → Bool
  | .ub _ => true
  | _ => false

/-- **C109 is violated**: this immediate assignment, a single block with starting time T1' 31, T3 63, T2 12 (a value no
network should send), aborts the process when a mobile station waits for its assignment. -/
theorem c109_violated : ¬ C109Statement := by
  intro h
  have hf : faults (ccchDataInd c106_env ⟨[⟨⟨0, 0xc0000001, noTlli, 1, []⟩, some waitingTbf⟩], ⟨fun _ => 0, 0, 0⟩⟩
    (immediateAssignment 0x10 (plainChannel 3 7 871) [0x7f, 0x2c, 0x91] 2 []
      ([0xc0, 0x0f, 0xff, 0x63] ++ List.replicate 7 0x2b)) 0) = true := by decide +kernel
  cases hr : ccchDataInd c106_env ⟨[⟨⟨0, 0xc0000001, noTlli, 1, []⟩, some waitingTbf⟩], ⟨fun _ => 0, 0, 0⟩⟩
    (immediateAssignment 0x10 (plainChannel 3 7 871) [0x7f, 0x2c, 0x91] 2 []
      ([0xc0, 0x0f, 0xff, 0x63] ++ List.replicate 7 0x2b)) 0 with
  | ub f => exact h _ _ _ _ (by decide) f hr
  | ok r => rw [hr] at hf; cases hf
  | err e => rw [hr] at hf; cases hf

theorem mi_safe (env : CcchEnv) (b : Octets) (hb : b.length = 23) (at_ len : Nat) :
    ∃ r, miAt env b at_ len = .ok r ∧ (r ≠ none → at_ + len ≤ 23) := by
  unfold miAt macBlockLen
  by_cases h : 23 < at_ + len
  · rw [if_pos h]; exact ⟨none, rfl, fun h => absurd rfl h⟩
  · rw [if_neg h, rdN_of_le (by omega)]
    exact ⟨_, rfl, fun _ => by omega⟩

theorem page1Rest_safe (s : CcchSt) (b : Octets) (hb : b.length = 23) (at_ : Nat) (m1 m2 : MobId) (ha : 5 ≤ at_) :
    (page1Rest s b at_ m1 m2).Safe := by
  unfold page1Rest macBlockLen
  split
  · exact fun f h => ret_ne_ub _ _ _ h
  · unfold decodeAt
    dsimp only
    rw [if_neg (by omega), rdN_of_le (by omega)]
    simp only [Res.bind_ok]
    split
    · rename_i h
      exact absurd h ((c99_p1 _ _ _ (by omega)).1 _)
    · exact fun f h => ret_ne_ub _ _ _ h
    · exact fun f h => by cases h

theorem page2Rest_safe (s : CcchSt) (b : Octets) (hb : b.length = 23) (at_ : Nat) (m : MobId) :
    (page2Rest s b at_ m).Safe := by
  unfold page2Rest macBlockLen
  split
  · exact fun f h => ret_ne_ub _ _ _ h
  · unfold decodeAt
    dsimp only
    rw [if_neg (by omega), rdN_of_le (by omega)]
    simp only [Res.bind_ok]
    split
    · rename_i h
      exact absurd h ((c99_p2 _ _ _ (by omega)).1 _)
    · exact fun f h => ret_ne_ub _ _ _ h
    · split
      · split
        · exact fun f h => ret_ne_ub _ _ _ h
        · exact fun f h => by cases h
      · exact fun f h => ret_ne_ub _ _ _ h

theorem handlePag1_safe (env : CcchEnv) (s : CcchSt) (b : Octets) (hb : b.length = 23) :
    (handlePag1 env s b).Safe := by
  unfold handlePag1
  rw [rd_of_lt (by omega : 0 < b.length), rd_of_lt (by omega : 4 < b.length)]
  simp only [Res.bind_ok]
  generalize (b[4]).toNat = l
  split
  · exact fun f h => ret_ne_ub _ _ _ h
  obtain ⟨r, hr, hle⟩ := mi_safe env b hb 5 l
  rw [hr]
  cases r with
  | none => exact fun f h => ret_ne_ub _ _ _ h
  | some m1 =>
    have h23 := hle (by intro h; cases h)
    dsimp only
    unfold page1Tail macBlockLen
    split
    · exact fun f h => ret_ne_ub _ _ _ h
    · rw [rd_of_lt (by omega)]
      simp only [Res.bind_ok]
      split
      · unfold page1Second macBlockLen
        split
        · exact fun f h => ret_ne_ub _ _ _ h
        · rw [rd_of_lt (by omega)]
          simp only [Res.bind_ok]
          obtain ⟨r2, hr2, -⟩ := mi_safe env b hb (5 + l + 2) (b[5 + l + 1]).toNat
          rw [hr2]
          cases r2 with
          | none => exact fun f h => ret_ne_ub _ _ _ h
          | some m2 => exact page1Rest_safe s b hb _ _ _ (by omega)
      · exact page1Rest_safe s b hb _ _ _ (by omega)

theorem handlePag2_safe (env : CcchEnv) (s : CcchSt) (b : Octets) (hb : b.length = 23) : (handlePag2 env s b).Safe := by
  unfold handlePag2
  rw [rd_of_lt (by omega : 0 < b.length), rd_of_lt (by omega : 12 < b.length), rd_of_lt (by omega : 13 < b.length)]
  simp only [Res.bind_ok]
  split
  · exact fun f h => ret_ne_ub _ _ _ h
  split
  · exact fun f h => ret_ne_ub _ _ _ h
  obtain ⟨r, hr, -⟩ := mi_safe env b hb 14 (b[13]).toNat
  rw [hr]
  cases r with
  | none => exact fun f h => ret_ne_ub _ _ _ h
  | some m => exact page2Rest_safe s b hb _ _

theorem immAssUl_idle (env : CcchEnv) (m : ImmAss) (fn ts : Nat) : ∀ es : List CcchGre, (∀ g ∈ es, g.waits = false) →
    immAssUl env m fn ts es = .ok (es, [], .errno .enoent)
  | [], _ => rfl
  | g :: gs, h => by
    unfold immAssUl
    rw [if_neg (by rw [h g (List.mem_cons_self ..)]; decide),
      immAssUl_idle env m fn ts gs fun x hx => h x (List.mem_cons_of_mem _ hx)]

theorem immAss_idle_safe (env : CcchEnv) (s : CcchSt) (b : Octets) (fn : Nat) (hb : b.length = 23)
    (hw : ∀ g ∈ s.es, g.waits = false) : (handleImmAssMsg env s b fn).Safe := by
  unfold handleImmAssMsg
  obtain ⟨d, hd, hub⟩ := c39_decodeAt b hb (b[11]).toNat (UInt8.toNat_lt _) env.junk
  rw [rd_of_lt (by omega : 11 < b.length), rd_of_lt (by omega : 4 < b.length)]
  simp only [Res.bind_ok]
  split
  · rw [hd]
    simp only [Res.bind_ok]
    split
    · exact absurd rfl (hub _)
    · exact fun f h => ret_ne_ub _ _ _ h
    · unfold immAssDecoded
      obtain ⟨e, he⟩ := c39_channel b hb
      rw [he]
      cases e with
      | none => exact fun f h => ret_ne_ub _ _ _ h
      | some e =>
        dsimp only
        split
        · have hx : ∃ r, immAssDispatch env s (iaKind ‹CSt›) fn e.ts = .ok r := by
            unfold immAssDispatch
            split
            · exact ⟨_, rfl⟩
            · exact ⟨_, rfl⟩
            · exact ⟨_, rfl⟩
            · rw [immAssUl_idle env _ _ _ _ hw]; exact ⟨_, rfl⟩
          obtain ⟨r, hr⟩ := hx
          rw [hr]
          exact fun f h => by cases h
        · intro f h; cases h
  · exact fun f h => ret_ne_ub _ _ _ h

/-- **C109** (partial).  Neither a paging request nor, while no mobile station waits for one, an immediate assignment
can abort the process or make it read outside the message or write outside a structure; nor can any other message but
system information type 13.  Missing (violated): immediate assignments with a starting time that is none while a mobile
station waits, and SI13 with a PBCCH description (see C101). -/
theorem c109_partial (env : CcchEnv) (s : CcchSt) (b : Octets) (fn : Nat) (hb : b.length = 23)
    (hsi : rd b 2 ≠ .ok 0) (hw : rd b 2 = .ok 0x3f → ∀ g ∈ s.es, g.waits = false) :
    (ccchDataInd env s b fn).Safe := by
  unfold ccchDataInd
  obtain ⟨t, ht⟩ : ∃ t, rd b 2 = .ok t := ⟨_, rd_of_lt (by omega)⟩
  rw [ht] at hsi hw ⊢
  simp only [Res.bind_ok]
  split
  · rename_i h; subst h
    exact immAss_idle_safe env s b fn hb (hw rfl)
  split
  · exact handlePag1_safe env s b hb
  split
  · exact handlePag2_safe env s b hb
  split
  · rename_i h; subst h; exact absurd rfl hsi
  · exact fun f h => ret_ne_ub _ _ _ h

/-- The hypotheses are met by this paging request with a mobile station that waits. -/
example : (ccchDataInd ⟨⟨fun a _ => a, 15⟩, fun _ => true, fun _ => none, true, fun _ => 0xff⟩
    ⟨[⟨⟨0, 0xc0000001, noTlli, 1, []⟩, some waitingTbf⟩], ⟨fun _ => 0, 0, 0⟩⟩
    ([0x15, 0x06, 0x21, 0x00, 0x01, 0xf0] ++ List.replicate 17 0x2b) 7).Safe :=
  c109_partial _ _ _ _ (by decide) (by decide) (by intro h; cases h)

end Verif.Props
