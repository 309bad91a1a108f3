import Verif.Props.GmmNet
import Verif.Props.GmmAuth
/-!
# C155 to C157: failures of the authentication, acceptances nobody asked for, refused messages
-/
namespace Verif.Props
open Verif Verif.Gmm Verif.Gsm

theorem submit_nil {ok : GmmOut → Bool} {a : GmmOut} {l : List GmmOut} : (submit ok (a :: l)).1 ≠ [] := by
  rw [submit]
  split <;> exact fun h => (by cases h)

/-- How the accept handlers end. -/
theorem submitThen_cases {cfg : GmmCfg} {ok : GmmOut → Bool} {g : Gmme} {outs : List GmmOut} {ev : FsmEv} {r : GmmStep}
    (h : submitThen cfg ok g outs ev = .ok r) :
    r = dispatch cfg ok g (submit ok outs).1 ev ∨ r = ⟨g, (submit ok outs).1, some .einval⟩ := by
  unfold submitThen at h
  split at h
  · injection h with h; exact Or.inl h.symm
  · injection h with h; exact Or.inr h.symm

theorem ptmsiReallEnd_out {ok : GmmOut → Bool} {g : Gmme} {r : GmmStep} (h : ptmsiReallEnd ok g = .ok r) :
    r.out ≠ [] := by
  unfold ptmsiReallEnd at h
  split at h
  · injection h with h; subst h; exact fun h => (by cases h)
  · injection h with h; subst h; exact submit_nil

theorem authFinish_some {ok : GmmOut → Bool} {g : Gmme} {s : Option Octets} : (authFinish ok g s).out ≠ [] := by
  unfold authFinish
  split
  · unfold authAnswer
    split <;> exact fun h => (by cases h)
  · exact fun h => (by cases h)

/-! ## C155: what a failed authentication is answered with -/

/-- The answers to AUTHENTICATION AND CIPHERING REQUEST by their message types, TS 24.008 table 10.4:
RESPONSE and FAILURE. -/
def AuthAnswer (m : Octets) : Prop := m[1]? = some 0x13 ∨ m[1]? = some 0x1c

/-- **C155**, full statement.  In every history, all that the network gets for such a request is an answer
to it. -/
def C155Statement : Prop :=
  ∀ cfg g t, GmmReach cfg g t → ∀ ok b r, isAuthReq b = true → gmmStep cfg ok g (.rx b) = .ok r →
    ∀ tlli m, GmmOut.llUnitdata tlli m ∈ r.out → AuthAnswer m

/-- **C155 is violated**: the answer to a request that is too short is P-TMSI REALLOCATION COMPLETE. -/
theorem c155_violated : ¬ C155Statement := by
  intro h
  have h0 := reach0 (l := []) (by decide +kernel)
  have := h _ _ _ h0 yes [0x08, 0x12, 0x00] _ (by decide) rfl _ _ (List.mem_singleton.2 rfl)
  revert this
  show ¬ AuthAnswer [0x08, 0x11, 95]
  unfold AuthAnswer
  decide

/-- What a request may be answered with, as the code does it: RESPONSE, or a message of the type of P-TMSI
REALLOCATION COMPLETE with one of the four causes. -/
def AuthSent (g : Gmme) (o : GmmOut) : Prop :=
  match o with
  | .llUnitdata tlli m => tlli = g.tlli ∧ (m.take 2 = [0x08, 0x13] ∨ ∃ c ∈ [23, 95, 100, 101], m = [0x08, 0x11, UInt8.ofNat c])
  | _ => True

theorem buildAuthResp_type {a : Nat} {s : Option Octets} {i : Bool} {v : List Nat} {m : Octets}
    (h : buildAuthResp a s i v = some m) : m.take 2 = [0x08, 0x13] := by
  unfold buildAuthResp at h
  dsimp only at h
  split at h
  · split at h
    · injection h with h; subst h; simp
    · cases h
  · injection h with h; subst h; simp

/-- How an authentication ends: well, with an answer; or else with one failure or none at all. -/
theorem authFinish_sent {ok : GmmOut → Bool} {g : Gmme} {s : Option Octets} :
    ((authFinish ok g s).rc = none → ∃ m, (authFinish ok g s).out = [assignOut g, .llUnitdata g.tlli m] ∧
      m.take 2 = [0x08, 0x13]) ∧
    ∀ o ∈ (authFinish ok g s).out, AuthSent g o := by
  unfold authFinish
  split
  · unfold authAnswer
    split
    · refine ⟨fun h => (by cases h), fun o ho => ?_⟩
      rw [List.mem_singleton] at ho; subst ho; trivial
    · rename_i m hm
      refine ⟨fun _ => ⟨m, rfl, buildAuthResp_type hm⟩, fun o ho => ?_⟩
      simp only [submitOne, List.mem_append, List.mem_cons, List.not_mem_nil, or_false] at ho
      rcases ho with rfl | rfl
      · trivial
      · exact ⟨rfl, Or.inl (buildAuthResp_type hm)⟩
  · refine ⟨fun h => (by cases h), fun o ho => ?_⟩
    simp only [List.mem_cons, List.not_mem_nil, or_false] at ho
    rcases ho with rfl | rfl
    · trivial
    · exact ⟨rfl, Or.inr ⟨101, by simp, rfl⟩⟩

/-- What AUTHENTICATION AND CIPHERING REQUEST leads to. -/
structure AuthOutcome (g : Gmme) (r : GmmStep) : Prop where
  /-- a request that is not refused is handed to the SIM, or answered with RESPONSE -/
  done : r.rc = none → (∃ c k x, r.out = [.simAuthInd c k x]) ∨
    ∃ tlli m o, r.out = [o, .llUnitdata tlli m] ∧ tlli = g.tlli ∧ m.take 2 = [0x08, 0x13]
  /-- what is sent -/
  sent : ∀ o ∈ r.out, AuthSent g o
  /-- a failure leaves no challenge in force and no timer running -/
  failed : ∀ tlli m, GmmOut.llUnitdata tlli m ∈ r.out → m.take 2 ≠ [0x08, 0x13] →
    r.rc ≠ none ∧ r.g.acRef = 0xff ∧ r.g.run3316 = false

theorem readyStop_tlli (g : Gmme) : (readyStop g).tlli = g.tlli := by
  unfold readyStop t3312Start
  split
  · split <;> rfl
  · rfl

theorem authFail_outcome {g : Gmme} {c : Nat} (hc : c ∈ [23, 95, 100, 101]) (e : Errno) (pre : List GmmOut)
    (hp : ∀ o ∈ pre, AuthSent g o) (g1 : Gmme) (h1 : g1.tlli = g.tlli) :
    AuthOutcome g ⟨(authFail g1 c).1, pre ++ [(authFail g1 c).2], some e⟩ := by
  refine ⟨fun h => (by cases h), fun o ho => ?_, fun tlli m hm _ => ⟨fun h => (by cases h), rfl, rfl⟩⟩
  rcases List.mem_append.1 ho with ho | ho
  · exact hp o ho
  · rw [List.mem_singleton] at ho; subst ho
    exact ⟨h1, Or.inr ⟨c, hc, rfl⟩⟩

/-- **C155** (partial): a request that succeeds is answered with RESPONSE or handed to the SIM; what is
sent goes under the TLLI and is either RESPONSE or a failure with one of four causes, and after a failure
no challenge is in force.  Missing: the message type of the failure. -/
theorem c155_partial {cfg : GmmCfg} {ok : GmmOut → Bool} {g : Gmme} {l : Octets} {r : GmmStep}
    (h : gmmStep cfg ok g (.rx (0x08 :: 0x12 :: l)) = .ok r) : AuthOutcome g r := by
  have h := rx_gmm h
  change rxAuthReq ok g (0x08 :: 0x12 :: l) = .ok r at h
  generalize (0x08 :: 0x12 :: l : Octets) = b at h
  unfold rxAuthReq at h
  split at h
  · injection h with h; subst h
    exact authFail_outcome (by simp [causeSemIncorr]) _ [] (fun _ h => by cases h) g rfl
  · obtain ⟨o2, _, h⟩ := bind_eq_ok.1 h
    obtain ⟨o3, _, h⟩ := bind_eq_ok.1 h
    split at h
    · cases h
    · injection h with h; subst h
      exact authFail_outcome (by simp) _ [] (fun _ h => by cases h) g rfl
    · obtain ⟨x, _, h⟩ := bind_eq_ok.1 h
      injection h with h; subst h
      unfold authApply
      dsimp only
      have ht : (if o3 % 16 ≠ 0 then readyStop g else g).tlli = g.tlli := by
        split
        · exact readyStop_tlli g
        · rfl
      generalize (if o3 % 16 ≠ 0 then readyStop g else g) = g1 at ht ⊢
      split
      · split
        · refine ⟨fun _ => Or.inl ⟨_, _, _, rfl⟩, fun o ho => ?_, fun tlli m hm => ?_⟩
          · rw [List.mem_singleton] at ho; subst ho; trivial
          · rw [List.mem_singleton] at hm; cases hm
        · refine authFail_outcome (by simp) _ [_] (fun o ho => ?_) _ ht
          rw [List.mem_singleton] at ho; subst ho; trivial
      · generalize hg2 : ({ g1 with gea := o2 % 16, acRef := o3 / 16, imeisvReq := decide (o2 / 16 ≠ 0), keySeq := 0xff } : Gmme) = g2
        have ht2 : g2.tlli = g.tlli := by rw [← hg2]; exact ht
        obtain ⟨hd, hs⟩ := authFinish_sent (ok := ok) (g := g2) (s := none)
        refine ⟨fun hr => ?_, fun o ho => ?_, fun tlli m hm hne => ?_⟩
        · obtain ⟨m, hm, hm2⟩ := hd hr
          exact Or.inr ⟨_, m, _, hm, ht2, hm2⟩
        · have := hs o ho
          unfold AuthSent at this ⊢
          split at this
          · exact ⟨this.1.trans ht2, this.2⟩
          · trivial
        · unfold authFinish at hm ⊢
          split at hm
          · rename_i ha
            rw [if_pos ha]
            unfold authAnswer at hm ⊢
            split at hm
            · rw [List.mem_singleton] at hm; cases hm
            · rename_i pdu hp
              simp only [submitOne, List.mem_append, List.mem_cons, List.not_mem_nil, or_false] at hm
              rcases hm with hm | hm
              · cases hm
              · injection hm with _ hm; subst hm
                exact absurd (buildAuthResp_type hp) hne
          · rename_i ha
            rw [if_neg ha]
            exact ⟨fun h => (by cases h), rfl, rfl⟩

/-- A request with a challenge, by a registered mobile station, goes to the SIM. -/
example : ∃ r, gmmStep defaultCfg yes readyMs
    (.rx (0x08 :: 0x12 :: ([0x00, 0x10, 0x21] ++ List.replicate 16 7 ++ [0x83]))) = .ok r ∧ r.rc = none :=
  ⟨_, rfl, rfl⟩

/-! ## C156: acceptances nobody asked for -/

/-- **C156**, full statement.  In every history, ATTACH ACCEPT does nothing unless an attach is going on,
and ROUTING AREA UPDATE ACCEPT does nothing unless an update is going on. -/
def C156Statement : Prop :=
  ∀ cfg g t, GmmReach cfg g t → ∀ ok l r,
    (g.st ≠ .regInit → gmmStep cfg ok g (.rx (0x08 :: 0x02 :: l)) = .ok r → r.g = g ∧ r.out = []) ∧
    (g.st ≠ .rauInit → gmmStep cfg ok g (.rx (0x08 :: 0x09 :: l)) = .ok r → r.g = g ∧ r.out = [])

/-- ROUTING AREA UPDATE ACCEPT without optional elements. -/
def rauAccPlain : Octets := [0x00, 0x2a, 0x32, 0xf4, 0x07, 0x00, 0x05, 0x00]

/-- **C156 is violated** by a mobile station that is not attached: its identity is replaced, LLC and
RLC/MAC are told, and ATTACH COMPLETE is sent. -/
theorem c156_unattached : ∃ g t, GmmReach defaultCfg g t ∧ g.st = .dereg ∧
    ∃ r, gmmStep defaultCfg yes g (.rx attAccMsg) = .ok r ∧ r.g.st = .dereg ∧ r.g.ptmsi ≠ g.ptmsi ∧
      GmmOut.llUnitdata r.g.tlli [0x08, 0x03] ∈ r.out :=
  ⟨_, _, reach0 (l := []) (by decide +kernel), by decide +kernel, _, rfl, by decide +kernel, by decide +kernel,
    by decide +kernel⟩

theorem c156_violated : ¬ C156Statement := by
  intro h
  have h0 := reach0 (l := []) (by decide +kernel)
  have := ((h _ _ _ h0 yes (attAccMsg.drop 2) _).1 (by decide +kernel) rfl).2
  exact absurd this (by decide +kernel)

/-- **C156 is violated** by a mobile station that is detaching: ROUTING AREA UPDATE ACCEPT makes it
registered again, and the detach is never confirmed. -/
theorem c156_detaching : ∃ g t, GmmReach defaultCfg g t ∧ g.st = .deregInit ∧
    ∃ r, gmmStep defaultCfg yes g (.rx (0x08 :: 0x09 :: rauAccPlain)) = .ok r ∧ r.g.st = .reg :=
  ⟨_, _, reach0 (l := [⟨.attachReq prm0, yes⟩, ⟨.rx attAccMsg, yes⟩, ⟨.detachReq 1 false, yes⟩]) (by decide +kernel),
    by decide +kernel, _, rfl, by decide +kernel⟩

theorem attachAccepted_refused {cfg : GmmCfg} {ok : GmmOut → Bool} {g : Gmme} (h : g.st ≠ .regInit) :
    gmmFsm cfg ok g .attachAccepted = none := by
  unfold gmmFsm
  cases hs : g.st <;> first | rfl | exact absurd hs h

theorem rauAccepted_refused {cfg : GmmCfg} {ok : GmmOut → Bool} {g : Gmme} (h : g.st ≠ .rauInit)
    (h2 : g.st ≠ .deregInit) : gmmFsm cfg ok g .rauAccepted = none := by
  unfold gmmFsm
  cases hs : g.st <;> first | rfl | exact absurd hs h | exact absurd hs h2

/-- Nobody is told that a registration was granted. -/
def NotGranted (o : GmmOut) : Prop :=
  match o with
  | .attachAcc .. => False
  | .estAcc .. => False
  | .llgmmResume _ => False
  | _ => True

theorem plain_notGranted {o : GmmOut} (h : Plain o) : NotGranted o := by
  cases o <;> trivial

/-- **C156** (partial): outside an attach, ATTACH ACCEPT neither changes the state of the registration nor
the parameters of the procedures, and nobody is told of a registration; the same for ROUTING AREA UPDATE
ACCEPT outside an update and outside a detach.  Missing: identity, routing area and timers are replaced,
and the network is answered. -/
theorem c156_partial {cfg : GmmCfg} {ok : GmmOut → Bool} {g : Gmme} {l : Octets} {r : GmmStep}
    (h : (g.st ≠ .regInit ∧ gmmStep cfg ok g (.rx (0x08 :: 0x02 :: l)) = .ok r) ∨
      (g.st ≠ .rauInit ∧ g.st ≠ .deregInit ∧ gmmStep cfg ok g (.rx (0x08 :: 0x09 :: l)) = .ok r)) :
    (r.g.st = g.st ∧ r.g.attAttempts = g.attAttempts ∧ r.g.rauAttempts = g.rauAttempts ∧ r.g.sess = g.sess ∧
      r.g.explicitAtt = g.explicitAtt ∧ r.g.implicitAtt = g.implicitAtt) ∧
    (∀ o ∈ r.out, NotGranted o) ∧ r.rc ≠ none := by
  have key : Same g r.g ∧ (∀ o ∈ r.out, Plain o) ∧ r.rc ≠ none := by
    rcases h with ⟨hs, h⟩ | ⟨hs, hs2, h⟩
    · have h := rx_gmm h
      change rxAttAcc cfg ok g (0x08 :: 0x02 :: l) = .ok r at h
      generalize (0x08 :: 0x02 :: l : Octets) = b at h
      unfold rxAttAcc at h
      split at h
      · injection h with h; subst h; exact ⟨Same.refl _, plain_nil, fun h => (by cases h)⟩
      · obtain ⟨o, _, h⟩ := bind_eq_ok.1 h
        obtain ⟨t, _, h⟩ := bind_eq_ok.1 h
        obtain ⟨ra, _, h⟩ := bind_eq_ok.1 h
        obtain ⟨x, hx, h⟩ := bind_eq_ok.1 h
        have hm := (applyFixed_same g t (decide (o / 16 ≠ 0)) ra).trans (attAccIes_same hx)
        unfold attAccEnd at h
        split at h
        · have hp : ∀ o ∈ [assignOut x.1, rrAssignOut x.1, .llUnitdata x.1.tlli attachCompl], Plain o := by
            intro o ho
            simp only [List.mem_cons, List.not_mem_nil, or_false] at ho
            rcases ho with rfl | rfl | rfl <;> trivial
          rcases submitThen_cases h with h | h
          · subst h
            unfold dispatch
            rw [attachAccepted_refused (by rw [hm.st]; exact hs)]
            exact ⟨hm, fun o ho => hp o (submit_sub ho), fun h => (by cases h)⟩
          · subst h
            exact ⟨hm, fun o ho => hp o (submit_sub ho), fun h => (by cases h)⟩
        · injection h with h; subst h; exact ⟨hm, plain_nil, fun h => (by cases h)⟩
    · have h := rx_gmm h
      change rxRauAcc cfg ok g (0x08 :: 0x09 :: l) = .ok r at h
      generalize (0x08 :: 0x09 :: l : Octets) = b at h
      unfold rxRauAcc at h
      split at h
      · injection h with h; subst h; exact ⟨Same.refl _, plain_nil, fun h => (by cases h)⟩
      · obtain ⟨o, _, h⟩ := bind_eq_ok.1 h
        obtain ⟨t, _, h⟩ := bind_eq_ok.1 h
        obtain ⟨ra, _, h⟩ := bind_eq_ok.1 h
        obtain ⟨x, hx, h⟩ := bind_eq_ok.1 h
        have hm := (applyFixed_same g t (decide (o % 16 ≠ 0)) ra).trans (rauAccIes_same hx)
        unfold rauAccEnd at h
        split at h
        · have hp : ∀ o ∈ ([assignOut x.1, rrAssignOut x.1] ++
              (if x.1.sess ≠ sessUnassigned then [modifyOut x.1] else []) ++ [.llUnitdata x.1.tlli rauCompl]),
              Plain o := by
            intro o ho
            simp only [List.mem_append, List.mem_cons, List.not_mem_nil, or_false] at ho
            rcases ho with ((rfl | rfl) | ho) | rfl
            · trivial
            · trivial
            · split at ho
              · rw [List.mem_singleton] at ho; subst ho; trivial
              · cases ho
            · trivial
          rcases submitThen_cases h with h | h
          · subst h
            unfold dispatch
            rw [rauAccepted_refused (by rw [hm.st]; exact hs) (by rw [hm.st]; exact hs2)]
            exact ⟨hm, fun o ho => hp o (submit_sub ho), fun h => (by cases h)⟩
          · subst h
            exact ⟨hm, fun o ho => hp o (submit_sub ho), fun h => (by cases h)⟩
        · injection h with h; subst h; exact ⟨hm, plain_nil, fun h => (by cases h)⟩
  obtain ⟨k, ho, hr⟩ := key
  exact ⟨⟨k.st, k.attAttempts, k.rauAttempts, k.sess, k.explicitAtt, k.implicitAtt⟩,
    fun o h => plain_notGranted (ho o h), hr⟩

/-- Both cases occur: at a mobile station that is not attached and at a registered one. -/
example : (∃ g t, GmmReach defaultCfg g t ∧ g.st ≠ .regInit ∧
      ∃ r, gmmStep defaultCfg yes g (.rx (0x08 :: 0x02 :: attAccMsg.drop 2)) = .ok r) ∧
    ∃ t, GmmReach defaultCfg readyMs t ∧ readyMs.st ≠ .rauInit ∧ readyMs.st ≠ .deregInit ∧
      ∃ r, gmmStep defaultCfg yes readyMs (.rx (0x08 :: 0x09 :: rauAccPlain)) = .ok r :=
  ⟨⟨_, _, reach0 (l := []) (by decide +kernel), by decide +kernel, _, rfl⟩,
    let ⟨t, ht⟩ := readyMs_reach
    ⟨t, ht, by decide +kernel, by decide +kernel, _, rfl⟩⟩

/-! ## C157: refused messages -/

/-- **C157**, full statement.  In every history, a message that is refused as invalid without anything
being handed out leaves the entity as it is. -/
def C157Statement : Prop :=
  ∀ cfg g t, GmmReach cfg g t → ∀ ok b r, gmmStep cfg ok g (.rx b) = .ok r → r.rc = some .einval → r.out = [] →
    r.g = g

/-- ATTACH ACCEPT with an optional element that is cut off. -/
def attAccCut : Octets := [0x08, 0x02, 0x01, 0x2a, 0x44, 0x62, 0xf2, 0x20, 0x11, 0x11, 0x22, 0x18, 0x05]

/-- **C157 is violated** by a registered mobile station: it leaves its routing area for the one in a
message that is refused. -/
theorem c157_violated : ¬ C157Statement := by
  intro h
  obtain ⟨t, ht⟩ := readyMs_reach
  have := h _ _ t ht yes attAccCut _ rfl (by decide +kernel) (by decide +kernel)
  exact absurd (congrArg Gmme.ra this) (by decide +kernel)

/-- ROUTING AREA UPDATE ACCEPT with a new P-TMSI and an MS identity that is no IMEISV. -/
def rauAccOdd : Octets := [0x08, 0x09, 0x00, 0x2a, 0x62, 0xf2, 0x20, 0x11, 0x11, 0x22, 0x18, 0x05, 0xf4, 0xc1, 0x02, 0x03, 0x04,
  0x23, 0x05, 0xf4, 0x00, 0x00, 0x00, 0x01]

/-- A registered mobile station also takes its P-TMSI and TLLI from a message that is refused: nothing is
handed out, so LLC and the radio resource layer are not told the name GMM goes on with. -/
theorem c157_violated_tlli : ∃ cfg g t r, GmmReach cfg g t ∧ g.st = .reg ∧ gmmStep cfg yes g (.rx rauAccOdd) = .ok r ∧
    r.rc = some .einval ∧ r.out = [] ∧ r.g.tlli = 0xc1020304 ∧ g.tlli ≠ 0xc1020304 := by
  obtain ⟨t, ht⟩ := readyMs_reach
  exact ⟨_, _, t, _, ht, by decide +kernel, rfl, by decide +kernel, by decide +kernel, by decide +kernel, by decide +kernel⟩

/-- **C157** (partial): for all messages but ATTACH ACCEPT and ROUTING AREA UPDATE ACCEPT or REJECT. -/
theorem c157_partial {cfg : GmmCfg} {ok : GmmOut → Bool} {g : Gmme} {b : Octets} {r : GmmStep}
    (ht : b[1]? ≠ some 0x02 ∧ b[1]? ≠ some 0x09 ∧ b[1]? ≠ some 0x0b)
    (h : gmmStep cfg ok g (.rx b) = .ok r) (hr : r.rc = some .einval) (ho : r.out = []) : r.g = g := by
  change rxLlUnitdata cfg ok g b = .ok r at h
  unfold rxLlUnitdata at h
  split at h
  · injection h with h; subst h; rfl
  obtain ⟨pd, _, h⟩ := bind_eq_ok.1 h
  obtain ⟨mt, hm, h⟩ := bind_eq_ok.1 h
  split at h
  swap
  · split at h
    · injection h with h; subst h; rfl
    · cases h
  have hmt : ∀ k : UInt8, b[1]? ≠ some k → mt ≠ k.toNat := by
    intro k hk e
    unfold rd at hm
    cases hb : b[1]? with
    | none => rw [hb] at hm; cases hm
    | some v =>
      rw [hb] at hm
      injection hm with hm
      have : v = k := UInt8.toNat_inj.1 (hm.trans e)
      exact hk (by rw [hb, this])
  have h2 : mt ≠ 0x02 := hmt 2 ht.1
  have h9 : mt ≠ 0x09 := hmt 9 ht.2.1
  have hb : mt ≠ 0x0b := hmt 0xb ht.2.2
  unfold gmmRx at h
  rw [if_neg h2, if_neg h9, if_neg hb] at h
  split at h
  · -- ATTACH REJECT
    unfold rxAttRej at h
    split at h
    · injection h with h; subst h; rfl
    · obtain ⟨c, _, h⟩ := bind_eq_ok.1 h
      split at h
      · injection h with h; subst h; rfl
      · cases h
      · injection h with h; subst h
        unfold dispatch at hr
        split at hr <;> cases hr
  split at h
  · -- DETACH ACCEPT
    unfold rxDetachAcc at h
    split at h
    · injection h with h; subst h; rfl
    · obtain ⟨o, _, h⟩ := bind_eq_ok.1 h
      dsimp only at h
      rcases submitThen_cases h with h | h
      · subst h
        unfold dispatch at hr
        split at hr <;> cases hr
      · subst h
        exact absurd ho submit_nil
  split at h
  · -- IDENTITY REQUEST
    unfold rxIdReq at h
    split at h
    · injection h with h; subst h; rfl
    · obtain ⟨o, _, h⟩ := bind_eq_ok.1 h
      dsimp only at h
      split at h
      · injection h with h; subst h; cases hr
      · injection h with h; subst h; cases ho
  split at h
  · -- P-TMSI REALLOCATION COMMAND
    unfold rxPtmsiReall at h
    split at h
    · injection h with h; subst h; rfl
    · obtain ⟨n, _, h⟩ := bind_eq_ok.1 h
      split at h
      · injection h with h; subst h; rfl
      · obtain ⟨mi, _, h⟩ := bind_eq_ok.1 h
        split at h
        · injection h with h; subst h; rfl
        · obtain ⟨ra, _, h⟩ := bind_eq_ok.1 h
          obtain ⟨o, _, h⟩ := bind_eq_ok.1 h
          exact absurd ho (ptmsiReallEnd_out h)
  split at h
  · -- AUTHENTICATION AND CIPHERING REQUEST
    unfold rxAuthReq at h
    split at h
    · injection h with h; subst h; cases ho
    · obtain ⟨o2, _, h⟩ := bind_eq_ok.1 h
      obtain ⟨o3, _, h⟩ := bind_eq_ok.1 h
      split at h
      · cases h
      · injection h with h; subst h; cases ho
      · obtain ⟨x, _, h⟩ := bind_eq_ok.1 h
        injection h with h; subst h
        unfold authApply at ho
        dsimp only at ho
        split at ho
        · split at ho <;> cases ho
        · exact absurd ho authFinish_some
  split at h
  · -- AUTHENTICATION AND CIPHERING REJECT
    injection h with h; subst h
    unfold dispatch at hr
    split at hr <;> cases hr
  split at h
  · split at h
    · injection h with h; subst h; rfl
    · injection h with h; subst h; rfl
  split at h
  · unfold rxInfo at h
    split at h
    · cases h
    · injection h with h; subst h; rfl
    · injection h with h; subst h; rfl
  · injection h with h; subst h; rfl

/-- A P-TMSI REALLOCATION COMMAND with a signature is refused like that. -/
example : ∃ r, gmmStep defaultCfg yes readyMs
    (.rx (Spec.Gmm.NetMsg.ptmsiRealloc 0xc0ffee01 [0x32, 0xf4, 0x07, 0x00, 0x05, 0x00] 0 (some [1, 2, 3])).encode) = .ok r ∧
      r.rc = some .einval ∧ r.out = [] :=
  ⟨_, rfl, rfl, rfl⟩

end Verif.Props
