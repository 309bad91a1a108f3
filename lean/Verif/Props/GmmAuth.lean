import Verif.Gmm.Closed
import Verif.Props.GmmProc
import Verif.Props.GmmTimers
/-!
# C103, C104: authentication; C105: release indications
-/
namespace Verif.Props
open Verif Verif.Gmm Verif.Gsm

/-! ## Specification -/

/-- A challenge as it is handed to the SIM: A&C reference number, key sequence number, RAND. -/
abbrev Challenge := Nat × Nat × Octets

/-- AUTHENTICATION AND CIPHERING REQUEST. -/
def isAuthReq (b : Octets) : Bool := b[1]? == some 0x12

/-- The challenge the SIM has been given and whose answer has not been used yet: a request that is handed
to the SIM (and to nobody else) makes it so, an answer of the SIM that is acted upon uses it up. -/
def pendStep (c : Option Challenge) (o : GmmObs) : Option Challenge :=
  match o.ev, o.out with
  | .rx b, [.simAuthInd r k x] => if isAuthReq b then some (r, k, x) else c
  | .simAuthRsp .., _ :: _ => none
  | _, _ => c

/-- The challenge after a history. -/
def pending (t : List GmmObs) : Option Challenge := t.foldl pendStep none

/-- **C103**, full statement.  In every history, an answer of the SIM is acted upon (anything is handed
out or changed) only if it challengeAnswered the challenge in force. -/
def C103Statement : Prop :=
  ∀ cfg g t, GmmReach cfg g t → ∀ ok r k x sres kc st, gmmStep cfg ok g (.simAuthRsp r k x sres kc) = .ok st →
    pending t ≠ some (r, k, x) → st.out = [] ∧ st.g = g

/-- **C103 is violated**: the reference number that stands for no challenge is answered on a fresh
entity: key and response of an answer nobody asked for are used. -/
theorem c103_violated : ¬ C103Statement := by
  intro h
  have h0 := reach0 (l := []) (by decide +kernel)
  have := (h _ _ _ h0 yes 0xff 0 (List.replicate 16 0) [1, 2, 3, 4] (List.replicate 16 7) _ rfl (by decide +kernel)).1
  exact absurd this (by decide +kernel)

/-- What the entity keeps of the challenge is what the SIM was given. -/
def ChInv (g : Gmme) (c : Option Challenge) : Prop := g.acRef = 0xff ∨ c = some (g.acRef, g.keySeq, g.rand)

/-- The stored challenge does not change. -/
def ChKept (a k : Nat) (x : Octets) (g : Gmme) : Prop := g.acRef = a ∧ g.keySeq = k ∧ g.rand = x

theorem chKept_same {a k : Nat} {x : Octets} {g h : Gmme} (p : ChKept a k x g) (h1 : h.acRef = g.acRef)
    (h2 : h.keySeq = g.keySeq) (h3 : h.rand = g.rand) : ChKept a k x h :=
  ⟨h1.trans p.1, h2.trans p.2.1, h3.trans p.2.2⟩

theorem t3312Start_ch (g : Gmme) : (t3312Start g).acRef = g.acRef ∧ (t3312Start g).keySeq = g.keySeq ∧
    (t3312Start g).rand = g.rand := by unfold t3312Start; split <;> exact ⟨rfl, rfl, rfl⟩

theorem readyStop_ch (g : Gmme) : (readyStop g).acRef = g.acRef ∧ (readyStop g).keySeq = g.keySeq ∧
    (readyStop g).rand = g.rand := by
  unfold readyStop
  split
  · exact t3312Start_ch _
  · exact ⟨rfl, rfl, rfl⟩

theorem chKept_closed (cfg : GmmCfg) (a k : Nat) (x : Octets) : Closed cfg (ChKept a k x) False where
  sig g n p := chKept_same p rfl rfl rfl
  ready g n p := by
    unfold readyNegotiated
    split
    · obtain ⟨h1, h2, h3⟩ := t3312Start_ch (readyStop { g with t3314s := n })
      obtain ⟨k1, k2, k3⟩ := readyStop_ch { g with t3314s := n }
      exact chKept_same p (h1.trans k1) (h2.trans k2) (h3.trans k3)
    · exact chKept_same p rfl rfl rfl
  ptmsi g q p := chKept_same p rfl rfl rfl
  ra g y p := chKept_same p rfl rfl rfl
  fixed g t f ra p := by
    have h1 : ChKept a k x (if tmrAssigned t = 0 then t3312Stop { g with t3312s := 0 }
        else { g with t3312s := tmrAssigned t }) := by split <;> exact chKept_same p rfl rfl rfl
    unfold applyFixed
    generalize (if tmrAssigned t = 0 then t3312Stop { g with t3312s := 0 }
        else { g with t3312s := tmrAssigned t }) = y at h1 ⊢
    have h2 : ChKept a k x (if f then readyStop y else y) := by
      split
      · obtain ⟨k1, k2, k3⟩ := readyStop_ch y
        exact chKept_same h1 k1 k2 k3
      · exact h1
    generalize (if f then readyStop y else y) = z at h2 ⊢
    exact chKept_same h2 rfl rfl rfl
  npdu g b v p := chKept_same p rfl rfl rfl
  pdp g s p := chKept_same p rfl rfl rfl
  standby g p := by
    obtain ⟨k1, k2, k3⟩ := readyStop_ch g
    exact chKept_same p k1 k2 k3
  sends g p := by unfold readyStart; split <;> exact chKept_same p rfl rfl rfl
  detached g p := chKept_same p rfl rfl rfl
  auth _ _ _ _ _ _ _ _ h := h.elim
  noAuth _ _ h := h.elim
  kc g y p := chKept_same p rfl rfl rfl
  stop3316 g p := chKept_same p rfl rfl rfl
  start3316 g p := by unfold t3316Start; split <;> exact chKept_same p rfl rfl rfl
  prm g q p := chKept_same p rfl rfl rfl
  att g t w e i p := chKept_same p rfl rfl rfl
  det g t p := chKept_same p rfl rfl rfl
  sess g s p := chKept_same p rfl rfl rfl
  attCount g n p := chKept_same p rfl rfl rfl
  rauCount g n p := chKept_same p rfl rfl rfl
  exp3314 g p _ := by
    obtain ⟨k1, k2, k3⟩ := t3312Start_ch { g with run3314 := false }
    exact chKept_same p k1 k2 k3
  exp3312 g p := chKept_same p rfl rfl rfl
  exp3316 _ _ h := h.elim
  fsm ok g ev y _ p h := by
    have k1 : ∀ z, (startAttach cfg ok g) = z → z.1.acRef = g.acRef ∧ z.1.keySeq = g.keySeq ∧ z.1.rand = g.rand := by
      intro z hz; subst hz; unfold startAttach; split
      · exact ⟨rfl, rfl, rfl⟩
      · dsimp only; split <;> exact ⟨rfl, rfl, rfl⟩
    have k2 : ∀ z, (startRau cfg ok g) = z → z.1.acRef = g.acRef ∧ z.1.keySeq = g.keySeq ∧ z.1.rand = g.rand := by
      intro z hz; subst hz; unfold startRau; dsimp only; split <;> exact ⟨rfl, rfl, rfl⟩
    have k3 : ∀ c z, (rauRejectedAct g c) = z → z.1.acRef = g.acRef ∧ z.1.keySeq = g.keySeq ∧ z.1.rand = g.rand := by
      intro c z hz; subst hz; unfold rauRejectedAct; split <;> exact ⟨rfl, rfl, rfl⟩
    have hk : y.1.acRef = g.acRef ∧ y.1.keySeq = g.keySeq ∧ y.1.rand = g.rand := by
      unfold gmmFsm at h
      split at h <;> first
        | (cases h; first | exact ⟨rfl, rfl, rfl⟩ | exact k1 _ rfl | exact k2 _ rfl | exact k3 _ _ rfl)
        | cases h
    exact chKept_same p hk.1 hk.2.1 hk.2.2

/-- Events that have nothing to do with the authentication leave the stored challenge alone. -/
theorem step_challenge {cfg : GmmCfg} {ok : GmmOut → Bool} {g : Gmme} {ev : GmmEv} {r : GmmStep}
    (hn : ¬ OfAuth ev) (h : gmmStep cfg ok g ev = .ok r) :
    r.g.acRef = g.acRef ∧ r.g.keySeq = g.keySeq ∧ r.g.rand = g.rand :=
  (chKept_closed cfg g.acRef g.keySeq g.rand).stepIf g ok ev r ⟨rfl, rfl, rfl⟩ (fun h => hn h) h

theorem authFinish_ref {ok : GmmOut → Bool} {g : Gmme} {s : Option Octets} : (authFinish ok g s).g.acRef = 0xff := by
  unfold authFinish
  split
  · unfold authAnswer; split <;> rfl
  · rfl

theorem authFinish_out {ok : GmmOut → Bool} {g : Gmme} {s : Option Octets} : (authFinish ok g s).out ≠ [] := by
  unfold authFinish
  split
  · unfold authAnswer; split <;> simp [submitOne]
  · simp

theorem rd_isAuthReq {b : Octets} (h : rd b 1 = .ok 0x12) : isAuthReq b = true := by
  unfold isAuthReq
  unfold rd at h
  split at h
  · rename_i v e
    injection h with h
    rw [e]
    have : v = 0x12 := UInt8.toNat_inj.1 h
    rw [this]; rfl
  · cases h

/-- The invariant of the stored challenge. -/
theorem step_chInv {cfg : GmmCfg} {ok : GmmOut → Bool} {g : Gmme} {ev : GmmEv} {r : GmmStep} {c : Option Challenge}
    (hi : ChInv g c) (h : gmmStep cfg ok g ev = .ok r) : ChInv r.g (pendStep c ⟨ev, r.out, r.rc⟩) := by
  by_cases hn : OfAuth ev
  · cases ev with
    | rx b =>
      have hb : isAuthReq b = true := rd_isAuthReq hn
      change rxLlUnitdata cfg ok g b = .ok r at h
      unfold rxLlUnitdata at h
      split at h
      · injection h with h; subst h; exact hi
      · obtain ⟨pd, _, h⟩ := bind_eq_ok.1 h
        obtain ⟨mt, hm, h⟩ := bind_eq_ok.1 h
        have : mt = 0x12 := by
          have hn' : rd b 1 = .ok 0x12 := hn
          rw [hm] at hn'; injection hn'
        subst this
        split at h
        · change rxAuthReq ok g b = .ok r at h
          unfold rxAuthReq at h
          split at h
          · injection h with h; subst h; exact Or.inl rfl
          · obtain ⟨o2, _, h⟩ := bind_eq_ok.1 h
            obtain ⟨o3, _, h⟩ := bind_eq_ok.1 h
            split at h
            · cases h
            · injection h with h; subst h; exact Or.inl rfl
            · obtain ⟨x, _, h⟩ := bind_eq_ok.1 h
              injection h with h; subst h
              unfold authApply
              dsimp only
              split
              · split
                · right
                  dsimp only [pendStep]
                  rw [if_pos hb]
                · exact Or.inl rfl
              · exact Or.inl authFinish_ref
        · split at h
          · injection h with h; subst h; exact hi
          · cases h
    | simAuthRsp a k x s kc =>
      injection h with h; subst h
      unfold simAuthRspAct
      split
      · exact Or.inl authFinish_ref
      · exact hi
    | t3316 =>
      injection h with h; subst h
      dsimp only
      split
      · exact Or.inl rfl
      · exact hi
    | _ => exact hn.elim
  · obtain ⟨h1, h2, h3⟩ := step_challenge hn h
    have hc : pendStep c ⟨ev, r.out, r.rc⟩ = c := by
      unfold pendStep
      split
      · rename_i b _ _ _ he _
        dsimp only at he
        subst he
        have : isAuthReq b ≠ true := by
          intro hb
          apply hn
          unfold isAuthReq at hb
          have hb := eq_of_beq hb
          show rd b 1 = .ok 0x12
          unfold rd; rw [hb]; rfl
        rw [if_neg this]
      · rename_i _ _ _ _ _ _ _ he _
        dsimp only at he
        subst he
        exact absurd trivial hn
      · rfl
    rw [hc]
    unfold ChInv
    rw [h1, h2, h3]
    exact hi

theorem run_chInv {cfg : GmmCfg} : ∀ (l : List GmmIn) (g g' : Gmme) (t : List GmmObs) (c : Option Challenge),
    ChInv g c → gmmRun cfg g l = .ok (g', t) → ChInv g' (t.foldl pendStep c) := by
  intro l
  induction l with
  | nil =>
    intro g g' t c hi h
    obtain ⟨rfl, rfl⟩ := gmmRun_nil h
    exact hi
  | cons i l ih =>
    intro g g' t c hi h
    obtain ⟨r, t', h1, h2, rfl⟩ := gmmRun_cons h
    rw [List.foldl_cons]
    exact ih _ _ _ _ (step_chInv hi h1) h2

/-- **C103** (partial): proved in all histories for the reference numbers that exist (0 to 15). -/
theorem c103_partial {cfg : GmmCfg} {g : Gmme} {t : List GmmObs} (h : GmmReach cfg g t) (ok : GmmOut → Bool)
    (r k : Nat) (x sres kc : Octets) (st : GmmStep) (hr : r < 16)
    (hs : gmmStep cfg ok g (.simAuthRsp r k x sres kc) = .ok st) (hp : pending t ≠ some (r, k, x)) :
    st.out = [] ∧ st.g = g := by
  obtain ⟨en, p, rnd, imsi, l, h⟩ := h
  have hi := run_chInv l _ _ _ none (Or.inl rfl) h
  injection hs with hs; subst hs
  unfold simAuthRspAct
  split
  · rename_i hm
    exfalso
    unfold simAuthMatches at hm
    obtain ⟨h1, h2, h3⟩ := of_decide_eq_true hm
    rcases hi with hi | hi
    · omega
    · rw [h1, h2, h3] at hi; exact hp hi
  · exact ⟨rfl, rfl⟩

/-- AUTHENTICATION AND CIPHERING REQUEST with reference number 5, key sequence number 2 and a RAND. -/
def authReqMsg : Octets := [0x08, 0x12, 0x00, 0x50, 0x21] ++ List.replicate 16 0xaa ++ [0x82]

/-- A challenge in force is met in histories, and its answer is acted upon. -/
example : ∃ g t, GmmReach defaultCfg g t ∧ pending t = some (5, 2, List.replicate 16 0xaa) ∧
    ∃ st, gmmStep defaultCfg yes g (.simAuthRsp 5 2 (List.replicate 16 0xaa) [1, 2, 3, 4] (List.replicate 16 7)) = .ok st ∧
      st.out ≠ [] :=
  ⟨_, _, reach0 (l := [⟨.rx authReqMsg, yes⟩]) (by decide +kernel), by decide +kernel, _, rfl, by decide +kernel⟩

/-! ## C104 -/

/-- The answer the network waits for: reference number and SRES (3GPP TS 24.008, 9.4.10). -/
def challengeAnswered (r : Nat) (sres : Octets) (m : Octets) : Prop :=
  m.take 2 = [0x08, 0x13] ∧ (∃ o, m[2]? = some o ∧ o.toNat % 16 = r) ∧ m[3]? = some 0x22 ∧ (m.drop 4).take 4 = sres

/-- **C104**, full statement.  When the SIM challengeAnswered the challenge in force, the network gets the answer,
whatever happened in between (the neighbours taking what they are given). -/
def C104Statement : Prop :=
  ∀ cfg g t, GmmReach cfg g t → ∀ r k x, pending t = some (r, k, x) → ∀ sres kc st, sres.length = 4 →
    gmmStep cfg yes g (.simAuthRsp r k x sres kc) = .ok st →
    ∃ tlli m, .llUnitdata tlli m ∈ st.out ∧ challengeAnswered r sres m

/-- **C104 is violated**: T3316 of an earlier authentication takes the new challenge away when it expires,
and the answer of the SIM is refused. -/
theorem c104_violated : ¬ C104Statement := by
  intro h
  have h0 := reach0 (l := [⟨.rx authReqMsg, yes⟩,
      ⟨.simAuthRsp 5 2 (List.replicate 16 0xaa) [1, 2, 3, 4] (List.replicate 16 7), yes⟩,
      ⟨.rx authReqMsg, yes⟩, ⟨.t3316, yes⟩]) (by decide +kernel)
  obtain ⟨tl, m, hm, _⟩ := h _ _ _ h0 5 2 (List.replicate 16 0xaa) (by decide +kernel) [1, 2, 3, 4]
    (List.replicate 16 7) _ rfl rfl
  have : (simAuthRspAct defaultCfg yes (finalOf (gmmRun defaultCfg ms0 [⟨.rx authReqMsg, yes⟩,
      ⟨.simAuthRsp 5 2 (List.replicate 16 0xaa) [1, 2, 3, 4] (List.replicate 16 7), yes⟩,
      ⟨.rx authReqMsg, yes⟩, ⟨.t3316, yes⟩])) 5 2 (List.replicate 16 0xaa) [1, 2, 3, 4]
      (List.replicate 16 7)).out = [] := by decide +kernel
  rw [this] at hm
  cases hm

/-- Events leave the challenge in force alone one after the other. -/
theorem run_challenge {cfg : GmmCfg} : ∀ (l : List GmmIn) (g g' : Gmme) (t : List GmmObs),
    (∀ i ∈ l, ¬ OfAuth i.ev) → gmmRun cfg g l = .ok (g', t) →
    g'.acRef = g.acRef ∧ g'.keySeq = g.keySeq ∧ g'.rand = g.rand := by
  intro l
  induction l with
  | nil => intro g g' t _ h; obtain ⟨rfl, rfl⟩ := gmmRun_nil h; exact ⟨rfl, rfl, rfl⟩
  | cons i l ih =>
    intro g g' t hn h
    obtain ⟨r, t', h1, h2, rfl⟩ := gmmRun_cons h
    obtain ⟨a1, a2, a3⟩ := step_challenge (hn i (List.mem_cons_self ..)) h1
    obtain ⟨b1, b2, b3⟩ := ih _ _ _ (fun j hj => hn j (List.mem_cons_of_mem _ hj)) h2
    exact ⟨b1.trans a1, b2.trans a2, b3.trans a3⟩

/-- **C104** (partial): a request of the network that is handed to the SIM is answered with what the SIM
says, from any state of the entity and with any events in between, except another request, another
answer of the SIM and T3316.  The IMEISV must be one that can be coded if the network asks for it. -/
theorem c104_partial {cfg : GmmCfg} {g g1 : Gmme} {b : Octets} {r k : Nat} {x : Octets} {st0 st : GmmStep}
    {l : List GmmIn} {t : List GmmObs} {sres kc : Octets} (hb : isAuthReq b = true)
    (h0 : gmmStep cfg yes g (.rx b) = .ok st0) (ho : st0.out = [.simAuthInd r k x])
    (hl : ∀ i ∈ l, ¬ OfAuth i.ev) (hrun : gmmRun cfg st0.g l = .ok (g1, t)) (hs : sres.length = 4)
    (hi : g1.imeisvReq = true → (miDigits 3 g1.imeisv).isSome = true)
    (h : gmmStep cfg yes g1 (.simAuthRsp r k x sres kc) = .ok st) :
    ∃ m, .llUnitdata g1.tlli m ∈ st.out ∧ challengeAnswered r sres m := by
  have hst : st0.g.acRef = r ∧ st0.g.keySeq = k ∧ st0.g.rand = x ∧ r < 16 := by
    have hm' : rd b 1 = .ok 0x12 := by
      unfold isAuthReq at hb
      have hb := eq_of_beq hb
      unfold rd; rw [hb]; rfl
    change rxLlUnitdata cfg yes g b = .ok st0 at h0
    unfold rxLlUnitdata at h0
    split at h0
    · injection h0 with h0; subst h0; cases ho
    · obtain ⟨pd, _, h0⟩ := bind_eq_ok.1 h0
      obtain ⟨mt, hm, h0⟩ := bind_eq_ok.1 h0
      have : mt = 0x12 := by rw [hm] at hm'; injection hm'
      subst this
      split at h0
      · change rxAuthReq yes g b = .ok st0 at h0
        unfold rxAuthReq at h0
        split at h0
        · injection h0 with h0; subst h0; cases ho
        · obtain ⟨o2, _, h0⟩ := bind_eq_ok.1 h0
          obtain ⟨o3, ho3, h0⟩ := bind_eq_ok.1 h0
          have := rd_lt ho3
          split at h0
          · cases h0
          · injection h0 with h0; subst h0; cases ho
          · obtain ⟨y, _, h0⟩ := bind_eq_ok.1 h0
            injection h0 with h0; subst h0
            unfold authApply at ho ⊢
            dsimp only at ho ⊢
            split at ho
            · rw [if_pos (by rfl)] at ho ⊢
              injection ho with ho
              injection ho with e1 e2 e3
              exact ⟨e1, e2, e3, by rw [← e1]; omega⟩
            · exfalso
              unfold authFinish at ho
              rw [if_pos (by rfl)] at ho
              unfold authAnswer at ho
              split at ho
              · injection ho with ho; cases ho
              · simp only [submitOne, List.cons_append, List.nil_append] at ho
                injection ho with ho _; cases ho
      · split at h0
        · injection h0 with h0; subst h0
          simp [submitOne] at ho
        · cases h0
  obtain ⟨a1, a2, a3, hr⟩ := hst
  obtain ⟨b1, b2, b3⟩ := run_challenge l _ _ _ hl hrun
  injection h with h; subst h
  unfold simAuthRspAct
  rw [if_pos (by unfold simAuthMatches; exact decide_eq_true ⟨b1.trans a1, b2.trans a2, b3.trans a3⟩)]
  have e1 : ∀ z : Gmme, (t3316Start cfg z).acRef = z.acRef ∧ (t3316Start cfg z).imeisvReq = z.imeisvReq ∧
      (t3316Start cfg z).imeisv = z.imeisv ∧ (t3316Start cfg z).tlli = z.tlli := by
    intro z; unfold t3316Start; split <;> exact ⟨rfl, rfl, rfl, rfl⟩
  obtain ⟨c1, c2, c3, c4⟩ := e1 { g1 with kc := kc }
  generalize t3316Start cfg { g1 with kc := kc } = z at c1 c2 c3 c4
  dsimp only at c1 c2 c3 c4
  unfold authFinish
  rw [if_pos (by rfl)]
  unfold authAnswer buildAuthResp
  rw [c1, c2, c3, c4, b1, a1]
  obtain ⟨s0, s1, s2, s3, rfl⟩ : ∃ s0 s1 s2 s3, sres = [s0, s1, s2, s3] := by
    match sres, hs with
    | [s0, s1, s2, s3], _ => exact ⟨_, _, _, _, rfl⟩
  have hans : ∀ tail, challengeAnswered r [s0, s1, s2, s3]
      ([0x08, 0x13, UInt8.ofNat (r % 16)] ++ (0x22 :: [s0, s1, s2, s3]) ++ tail) := by
    intro tail
    refine ⟨rfl, ⟨UInt8.ofNat (r % 16), rfl, ?_⟩, rfl, rfl⟩
    rw [UInt8.toNat_ofNat']; omega
  dsimp only
  by_cases hv : g1.imeisvReq = true
  · rw [if_pos hv]
    obtain ⟨mi, hmi⟩ := Option.isSome_iff_exists.1 (hi hv)
    rw [hmi]
    refine ⟨_, ?_, hans (0x23 :: lv mi)⟩
    simp only [submitOne]
    exact List.mem_append_right _ (List.mem_singleton.2 rfl)
  · rw [if_neg hv]
    refine ⟨_, ?_, hans []⟩
    simp only [submitOne, List.append_nil]
    exact List.mem_append_right _ (List.mem_singleton.2 rfl)

/-- The hypotheses are met: a request, then a page, then the answer. -/
example : ∃ st0 g1 t st, gmmStep defaultCfg yes ms0 (.rx authReqMsg) = .ok st0 ∧
    st0.out = [.simAuthInd 5 2 (List.replicate 16 0xaa)] ∧ gmmRun defaultCfg st0.g [⟨.pageInd, yes⟩] = .ok (g1, t) ∧
    gmmStep defaultCfg yes g1 (.simAuthRsp 5 2 (List.replicate 16 0xaa) [1, 2, 3, 4] []) = .ok st ∧
    .llUnitdata g1.tlli [0x08, 0x13, 0x05, 0x22, 1, 2, 3, 4] ∈ st.out :=
  ⟨_, _, _, _, rfl, by decide +kernel, rfl, rfl, by decide +kernel⟩

end Verif.Props
