import Verif.Props.GmmNetDetach
/-!
# C201: the user learns that the registration has ended
-/
namespace Verif.Props
open Verif Verif.Gmm Verif.Gsm

/-! ## Specification -/

/-- A primitive for the user of the library: GMMREG-ATTACH.cnf, GMMREG-DETACH.cnf or GMMREG-SIM_AUTH.ind; there is no
other (GMMREG-DETACH.ind, which the header declares, is never sent). -/
def forUser : GmmOut → Bool
  | .attachAcc .. | .attachRej .. | .detachCnf .. | .simAuthInd .. => true
  | _ => false

/-- The mobile station is registered: GMM-REGISTERED or updating its routing area. -/
def isRegistered (g : Gmme) : Prop := g.st = .reg ∨ g.st = .rauInit

/-- The mobile station is not registered and not detaching either. -/
def isGone (g : Gmme) : Prop := g.st = .dereg ∨ g.st = .null ∨ g.st = .regInit

/-- **C201**, full statement.  In every history, when the registration ends and the user did not ask for it, the user is
told. -/
def C201Statement : Prop :=
  ∀ cfg g t, GmmReach cfg g t → isRegistered g → ∀ ok e r, gmmStep cfg ok g e = .ok r → isGone r.g →
    (∃ type poweroff, e = .detachReq type poweroff) ∨ ∃ x ∈ r.out, forUser x = true

/-! ## What happens -/

theorem stay {g g' : Gmme} {P : Prop} (h : isRegistered g) (hs : g'.st = g.st) (hg : isGone g') : P := by
  exfalso
  unfold isRegistered at h
  unfold isGone at hg
  rw [hs] at hg
  rcases h with h | h <;> rw [h] at hg <;> rcases hg with x | x | x <;> cases x

/-- **C201 never holds**: when a message ends the registration, the user is told nothing; session management alone may
be. -/
theorem c201_never {cfg : GmmCfg} {ok : GmmOut → Bool} {g : Gmme} {b : Octets} {r : GmmStep} (h : isRegistered g)
    (hr : gmmStep cfg ok g (.rx b) = .ok r) (hg : isGone r.g) : ∀ x ∈ r.out, forUser x = false := by
  have hq := hr
  change rxLlUnitdata cfg ok g b = .ok r at hr
  have hty : rd b 1 = .ok 0x0b := by
    cases rx_shape hr with
    | quiet hs _ => exact stay h hs.st hg
    | event g1 pre fe hs _ hf he _ =>
      rw [he] at hg
      have h1 : isRegistered g1 := by unfold isRegistered; rw [hs.st]; exact h
      cases fe with
      | rauRejected c => exact hf
      | _ =>
        first
        | exact hf.elim
        | (exfalso
           unfold dispatch gmmFsm at hg
           rcases h1 with h1 | h1 <;> rw [h1] at hg <;> dsimp only at hg <;>
             first
             | exact stay (.inl h1) rfl hg
             | exact stay (.inr h1) rfl hg
             | (rcases hg with x | x | x <;> cases x))
  unfold rxLlUnitdata at hr
  split at hr
  · injection hr with hr; subst hr; exact stay h rfl hg
  cases h0 : rd b 0 with
  | err e => rw [h0] at hr; cases hr
  | ub f => rw [h0] at hr; cases hr
  | ok pd =>
    rw [h0, hty] at hr
    simp only [Res.bind_ok] at hr
    split at hr
    · change rxRauRej cfg ok g b = .ok r at hr
      have key : ∀ g1 c, isRegistered g1 → ∀ x ∈ (dispatch cfg ok g1 [] (.rauRejected c)).out, forUser x = false := by
        intro g1 c h1 x hx
        unfold dispatch gmmFsm at hx
        rcases h1 with h1 | h1 <;> rw [h1] at hx <;> dsimp only at hx
        · cases hx
        · unfold rauRejectedAct toDereg at hx
          split at hx
          · cases hx
          · dsimp only at hx
            split at hx
            · rcases List.mem_singleton.1 hx with rfl; rfl
            · cases hx
      unfold rxRauRej at hr
      split at hr
      · injection hr with hr; subst hr; exact key _ _ h
      · cases h2 : rd b 2 with
        | err e => rw [h2] at hr; cases hr
        | ub f => rw [h2] at hr; cases hr
        | ok c =>
          cases h3 : rd b 3 with
          | err e => rw [h2, h3] at hr; cases hr
          | ub f => rw [h2, h3] at hr; cases hr
          | ok o =>
            rw [h2, h3] at hr
            simp only [Res.bind_ok] at hr
            have hreg : isRegistered (if o / 16 = 1 then readyStop g else g) := by
              split
              · unfold isRegistered; rw [(readyStop_same g).st]; exact h
              · exact h
            generalize (if b.length > 4 then ieParse gmmIes b 4 else .ok []) = q at hr
            cases q with
            | ub f => cases hr
            | ok a => injection hr with hr; subst hr; exact key _ _ hreg
            | err e => injection hr with hr; subst hr; exact key _ _ hreg
    · split at hr
      · injection hr with hr; subst hr; exact stay h rfl hg
      · cases hr

/-- A mobile station that updates its routing area can be reached. -/
theorem updatingMs_reach : ∃ t, GmmReach defaultCfg updatingMs t :=
  ⟨_, reach0 (l := [⟨.attachReq prm0, yes⟩, ⟨.rx attAccMsg, yes⟩, ⟨.llcTransmitted, yes⟩, ⟨.t3314, yes⟩,
    ⟨.t3312, yes⟩]) (by decide +kernel)⟩

/-- **C201 is violated** by a mobile station whose routing area update is rejected with the cause "implicitly detached". -/
theorem c201_violated : ¬ C201Statement := by
  intro h
  obtain ⟨t, ht⟩ := updatingMs_reach
  have hst : updatingMs.st = .rauInit := by decide +kernel
  obtain ⟨r, hr, -, -, h4⟩ := c199_partial defaultCfg yes updatingMs hst 10 0
  have hg : isGone r.g := .inl (h4 (by decide)).1
  rcases h _ _ t ht (.inr hst) _ _ _ hr hg with ⟨_, _, x⟩ | ⟨x, hx, hu⟩
  · cases x
  · rw [c201_never (.inr hst) hr hg x hx] at hu
    cases hu

/-! ## What holds -/

/-- Only a detach for switching off, which the user asks for, and ROUTING AREA UPDATE REJECT end a registration in one
step. -/
theorem c201_ways {cfg : GmmCfg} {ok : GmmOut → Bool} {g : Gmme} {e : GmmEv} {r : GmmStep} (h : isRegistered g)
    (hr : gmmStep cfg ok g e = .ok r) (hg : isGone r.g) :
    (∃ type, e = .detachReq type true) ∨ (g.st = .rauInit ∧ ∃ b, e = .rx b ∧ rd b 1 = .ok 0x0b) := by
  cases e with
  | rx b =>
    refine .inr ?_
    change rxLlUnitdata cfg ok g b = .ok r at hr
    cases rx_shape hr with
    | quiet hs _ => exact stay h hs.st hg
    | event g1 pre fe hs _ hf he _ =>
      rw [he] at hg
      unfold dispatch gmmFsm at hg
      rcases h with h | h
      · have h1 : g1.st = .reg := hs.st.trans h
        rw [h1] at hg
        cases fe <;> first | exact hf.elim | exact stay (.inl h1) rfl hg
      · have h1 : g1.st = .rauInit := hs.st.trans h
        rw [h1] at hg
        cases fe with
        | rauRejected c => exact ⟨h, b, rfl, hf⟩
        | _ =>
          first
          | exact hf.elim
          | exact stay (.inr h1) rfl hg
          | (rcases hg with x | x | x <;> cases x)
  | detachReq type poweroff =>
    cases poweroff with
    | true => exact .inl ⟨type, rfl⟩
    | false =>
      injection hr with hr
      subst hr
      unfold detachReqAct submitOne dispatch gmmFsm at hg
      rcases h with h | h <;> rw [if_neg (by decide)] at hg <;> dsimp only at hg <;> rw [h] at hg <;> dsimp only at hg
      · rcases hg with x | x | x <;> cases x
      · rcases hg with x | x | x <;> cases x
  | enable on =>
    injection hr with hr
    subst hr
    unfold dispatch gmmFsm at hg
    rcases h with h | h <;> cases on <;> rw [h] at hg
    · exact stay (.inl h) rfl hg
    · exact stay (.inl h) rfl hg
    · exact stay (.inr h) rfl hg
    · exact stay (.inr h) rfl hg
  | attachReq p =>
    injection hr with hr
    subst hr
    unfold attachReqAct requestAttach dispatch gmmFsm storeIdentities at hg
    dsimp only at hg
    rcases h with h | h <;> rw [h] at hg <;> rcases hg with x | x | x <;> cases x
  | establishReq sess p =>
    injection hr with hr
    subst hr
    unfold establishReqAct at hg
    dsimp only at hg
    split at hg
    · exact stay h rfl hg
    · unfold requestAttach dispatch gmmFsm storeIdentities at hg
      dsimp only at hg
      rcases h with h | h <;> rw [h] at hg <;> rcases hg with x | x | x <;> cases x
  | simAuthRsp a k rnd sres kc =>
    injection hr with hr
    subst hr
    unfold simAuthRspAct at hg
    split at hg
    · exact stay h (Eq.trans authFinish_same.st (t3316Start_same cfg { g with kc := kc }).st) hg
    · exact stay h rfl hg
  | smUnitdataReq pdu => injection hr with hr; subst hr; exact stay h rfl hg
  | pageInd => injection hr with hr; subst hr; exact stay h (readyStart_same g).st hg
  | llcTransmitted => injection hr with hr; subst hr; exact stay h (readyStart_same g).st hg
  | fsmTimer =>
    injection hr with hr
    subst hr
    unfold fsmTimeout at hg
    rcases h with h | h
    · rw [h] at hg
      exact stay (.inl h) rfl hg
    · rw [h] at hg
      dsimp only at hg
      split at hg
      · unfold dispatch gmmFsm at hg
        rcases hg with x | x | x <;> cases x
      · rcases hg with x | x | x <;> cases x
  | t3314 =>
    injection hr with hr
    subst hr
    dsimp only at hg
    split at hg
    · exact stay h (t3312Start_same { g with run3314 := false }).st hg
    · exact stay h rfl hg
  | t3312 =>
    injection hr with hr
    subst hr
    unfold periodicUpdate at hg
    split at hg
    · unfold dispatch gmmFsm startRau at hg
      rcases h with h | h
      · dsimp only at hg
        rw [h] at hg
        dsimp only at hg
        split at hg
        · rcases hg with x | x | x <;> cases x
        · rcases hg with x | x | x <;> cases x
      · dsimp only at hg
        rw [h] at hg
        rcases hg with x | x | x <;> cases x
    · exact stay h rfl hg
  | t3316 =>
    injection hr with hr
    subst hr
    dsimp only at hg
    split at hg <;> exact stay h rfl hg

/-- **C201** (partial): session management is told of every end of a registration that it has asked for. -/
theorem c201_partial {cfg : GmmCfg} {ok : GmmOut → Bool} {g : Gmme} {e : GmmEv} {r : GmmStep} (h : isRegistered g)
    (hr : gmmStep cfg ok g e = .ok r) (hg : isGone r.g) (hs : g.sess ≠ sessUnassigned) :
    r.g.st = .dereg ∧ GmmOut.releaseInd g.sess ∈ r.out := by
  rcases c201_ways h hr hg with ⟨type, rfl⟩ | ⟨hst, b, rfl, -⟩
  · injection hr with hr
    subst hr
    have hd : gmmFsm cfg ok { g with detType := type } .detachPoweroff = some (toDereg { g with detType := type }) := by
      unfold gmmFsm
      rcases h with h | h <;> dsimp only <;> rw [h]
    have hn : g.st ≠ .null := by rcases h with h | h <;> rw [h] <;> decide
    unfold detachReqAct submitOne dispatch
    rw [if_pos rfl, hd]
    refine ⟨rfl, ?_⟩
    unfold toDereg
    dsimp only
    rw [if_pos ⟨hn, hs⟩]
    simp
  · change rxLlUnitdata cfg ok g b = .ok r at hr
    cases rx_shape hr with
    | quiet k _ => exact stay h k.st hg
    | event g1 pre fe k _ hf he ho =>
      have h1 : g1.st = .rauInit := k.st.trans hst
      rw [he] at hg ⊢
      rw [ho]
      unfold dispatch gmmFsm at hg ⊢
      rw [h1] at hg ⊢
      cases fe with
      | rauRejected c =>
        dsimp only at hg ⊢
        unfold rauRejectedAct at hg ⊢
        split at hg
        · rcases hg with x | x | x <;> cases x
        · rename_i hc
          rw [if_neg hc]
          refine ⟨rfl, ?_⟩
          unfold toDereg
          dsimp only
          rw [if_pos ⟨by rw [h1]; decide, by rw [k.sess]; exact hs⟩, k.sess]
          simp
      | _ =>
        first
        | exact hf.elim
        | exact stay (.inr h1) rfl hg
        | (exfalso; rcases hg with x | x | x <;> cases x)

/-- A mobile station that session management has asked to register, whose routing area update is rejected. -/
example : ∃ g t r, GmmReach defaultCfg g t ∧ isRegistered g ∧ g.sess ≠ sessUnassigned ∧
    gmmStep defaultCfg yes g (.rx [0x08, 0x0b, 10, 0]) = .ok r ∧ isGone r.g := by
  have ht := reach0 (l := [⟨.establishReq 0 prm0, yes⟩, ⟨.rx attAccMsg, yes⟩, ⟨.llcTransmitted, yes⟩, ⟨.t3314, yes⟩,
    ⟨.t3312, yes⟩]) (by decide +kernel)
  refine ⟨_, _, _, ht, .inr ?_, ?_, rfl, .inl ?_⟩ <;> decide +kernel

end Verif.Props
