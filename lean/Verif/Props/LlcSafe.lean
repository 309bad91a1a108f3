import Verif.Props.LlcXidExchange

/-!
# C60: no request and no received frame makes the LLC layer abort or access memory out of bounds
-/
namespace Verif.Props

open Verif.Llc Verif.Spec

/-- **C60, full statement**: in every state, whatever the operation, nothing goes wrong for good.
Requests by the local layers name one of the 16 SAPIs. -/
def SapiInRange : Op → Prop
  | .unitdataReq _ s _ _ | .xidReq _ s _ | .xidResp _ s _ | .establishReq _ s => s < 16
  | _ => True

def LlcNeverFaults : Prop :=
  ∀ (loc : Location) (ops : List Op) (op : Op), SapiInRange op →
    (((Ctx.init loc).run ops).1.step op).rc.Safe

/-- The property is false: a frame of five octets with a wrong FCS makes the receiver compare six
octets of it. -/
theorem c60_violated : ¬ LlcNeverFaults := by
  intro h
  have := h .sgsn [] (.rxPdu 0xc0000001 [0x01, 0xeb, 0, 0, 0]) trivial
  exact absurd this (by decide +kernel)

theorem encode_safe (p : Pdu) : (encode p).Safe := by
  have hc : (encCtrl p).Safe := by
    unfold encCtrl encCtrlI encCtrlS encCtrlU
    simp only
    split
    · split
      · split <;> simp
      · simp
    · split
      · split <;> simp
      · simp
    · simp
    · split <;> simp
  unfold encode
  split
  · simp only; split <;> simp
  · simp
  · rename_i u hu; rw [hu] at hc; simp at hc

theorem txFrame_safe (loc : Location) (t s prio : Nat) (l : Lle) (p : Pdu) :
    (txFrame loc t s prio l p).rc.Safe := by
  have := encode_safe p
  unfold txFrame
  split
  · simp
  · simp
  · rename_i u hu; rw [hu] at this; simp at this

theorem txUi_safe (loc : Location) (t prio : Nat) (l : Lle) (d : Octets) : (l.txUi loc t prio d).rc.Safe := by
  unfold Lle.txUi
  split
  · simp
  · split
    · simp
    · simp
    · rename_i u hu
      have := encode_safe { sapi := l.sapi, fmt := .UI, func := .SABM
                            flags := { protMode := true, cmdRsp := encodeCr loc false }
                            seqTx := l.vuSend, data := d }
      rw [hu] at this; simp at this

theorem txXidReq_safe (loc : Location) (t : Nat) (l : Lle) (l3 : Option Octets) :
    (l.txXidReq loc t l3).rc.Safe := by
  unfold Lle.txXidReq
  simp only
  split
  · split
    · exact txFrame_safe _ _ _ _ _ _
    · simp
  · simp
  · rename_i u hu
    have := (c07_xid_encode_in_bounds 1024 (l.xidFields l3)).1
    rw [hu] at this; simp at this

theorem txXidResp_safe (loc : Location) (t : Nat) (l : Lle) (l3 : Octets) :
    (l.txXidResp loc t l3).rc.Safe := by
  unfold Lle.txXidResp
  simp only
  split
  · exact txFrame_safe _ _ _ _ _ _
  · simp
  · rename_i u hu
    have := (c07_xid_encode_in_bounds 1024 (replaceL3 l3 l.rxXid)).1
    rw [hu] at this; simp at this

theorem reset_safe (loc : Location) (t iov : Nat) (l : Lle) : (l.reset loc t iov).rc.Safe := by
  unfold Lle.reset
  simp only
  split
  · exact txFrame_safe _ _ _ _ _ _
  · simp
  · rename_i u hu
    have := (c07_xid_encode_in_bounds 1024 [{ type := 12 }, { type := 1, val := iov }]).1
    rw [hu] at this; simp at this

theorem rx_safe (loc : Location) (t : Nat) (l : Lle) (d : Octets) (p : Decoded)
    (hd : 6 ≤ d.length ∨ fcsOk p d = true) : (l.rx loc t d p).rc.Safe := by
  unfold Lle.rx
  split
  · simp
  split
  · split
    · simp
    · rename_i h1 h2
      rcases hd with hd | hd
      · omega
      · simp [hd] at h1
  split
  · simp
  · simp
  · have hsafe : ∀ r : LleRes, r.rc.Safe →
        (match r.rc with | .ub u => (.ub u : Res Unit) | _ => .ok ()).Safe := by
      intro r hr
      split
      · rename_i u hu; rw [hu] at hr; simp at hr
      · simp
    refine hsafe _ ?_
    split
    · unfold Lle.processXidInd
      split
      · simp
      · rename_i u hu
        have := (c08_xid_decode_valid 16 (p.payload d)).1
        rw [hu] at this; simp at this
      · simp only
        split
        · simp
        · exact txXidResp_safe _ _ _ _
    · unfold Lle.processXidConf
      split
      · simp
      · rename_i u hu
        have := (c08_xid_decode_valid 16 (p.payload d)).1
        rw [hu] at this; simp at this
      · simp
  · split
    · simp
    · simp only [deliverUi]
      split
      · simp
      · split <;> simp
  · simp

theorem and15_lt (n : Nat) : n &&& 0x0f < 16 := Nat.lt_of_le_of_lt Nat.and_le_right (by decide)

theorem decode_sapi_lt {w : Octets} {d : Decoded} (h : decode w = .ok d) : d.sapi < 16 := by
  have hI : ∀ (p : Decoded) dl d, decodeI w p dl = .ok d → d.sapi = p.sapi := by
    intro p dl d h
    unfold decodeI at h
    split at h
    · cases h
    obtain ⟨_, _, h⟩ := bind_ok_inv h
    obtain ⟨_, _, h⟩ := bind_ok_inv h
    obtain ⟨_, _, h⟩ := bind_ok_inv h
    split at h
    · injection h with h; subst h; rfl
    · injection h with h; subst h; rfl
    · injection h with h; subst h; rfl
    · split at h
      · cases h
      obtain ⟨k, _, h⟩ := bind_ok_inv h
      by_cases hk : dl - 3 < (k &&& 0x1f) + 1
      · simp only [hk, if_true] at h; cases h
      simp only [hk, if_false] at h
      obtain ⟨_, _, h⟩ := bind_ok_inv h
      injection h with h; subst h; rfl
  have hS : ∀ (p : Decoded) dl d, decodeS w p dl = .ok d → d.sapi = p.sapi := by
    intro p dl d h
    unfold decodeS at h
    split at h
    · cases h
    obtain ⟨_, _, h⟩ := bind_ok_inv h
    obtain ⟨_, _, h⟩ := bind_ok_inv h
    split at h
    · injection h with h; subst h; rfl
    · injection h with h; subst h; rfl
    · injection h with h; subst h; rfl
    · split at h
      · cases h
      obtain ⟨_, _, h⟩ := bind_ok_inv h
      injection h with h; subst h; rfl
  have hUI : ∀ (p : Decoded) dl d, decodeUI w p dl = .ok d → d.sapi = p.sapi := by
    intro p dl d h
    unfold decodeUI at h
    split at h
    · cases h
    obtain ⟨_, _, h⟩ := bind_ok_inv h
    obtain ⟨_, _, h⟩ := bind_ok_inv h
    split at h
    · split at h
      · cases h
      obtain ⟨_, _, h⟩ := bind_ok_inv h
      injection h with h; subst h; rfl
    · injection h with h; subst h; rfl
  have hU : ∀ (p : Decoded) dl d, decodeU w p dl = .ok d → d.sapi = p.sapi := by
    intro p dl d h
    unfold decodeU at h
    split at h
    · cases h
    obtain ⟨_, _, h⟩ := bind_ok_inv h
    split at h <;> first | (injection h with h; subst h; rfl) | cases h
  unfold decode at h
  simp only at h
  split at h
  · cases h
  obtain ⟨_, _, h⟩ := bind_ok_inv h
  obtain ⟨_, _, h⟩ := bind_ok_inv h
  obtain ⟨_, _, h⟩ := bind_ok_inv h
  split at h
  · cases h
  obtain ⟨a, _, h⟩ := bind_ok_inv h
  split at h
  · cases h
  split at h
  · cases h
  unfold decodeCtrl at h
  split at h
  · cases h
  obtain ⟨_, _, h⟩ := bind_ok_inv h
  have : d.sapi = a &&& 0x0f := by
    split at h
    · exact hI _ _ _ h
    split at h
    · exact hS _ _ _ h
    split at h
    · exact hUI _ _ _ h
    · exact hU _ _ _ h
  rw [this]; exact and15_lt a

/-- The received frames C60 is proved for: at least six octets, and not an S-format SACK frame that overruns the
bitmap array (C06). -/
def FrameOk : Op → Prop
  | .rxPdu _ d => 6 ≤ d.length ∧ (d.length ≤ 38 ∨ ¬ IsSFormatSack d)
  | _ => True

/-- **C60 (part)**: no request and no received frame other than the two malformed kinds excluded by
`FrameOk` makes the layer abort or access memory out of bounds, in any state.  Missing: exactly those frames, for which
the property is false (`c60_violated`, `c06_violated_overflow`). -/
theorem c60_never_faults_partial (c : Ctx) (op : Op) (hs : SapiInRange op) (hf : FrameOk op) :
    (c.step op).rc.Safe := by
  have onLle : ∀ (c : Ctx) (i s : Nat) (f : Llme → Lle → LleRes), s < 16 → (∀ m l, (f m l).rc.Safe) →
      (c.onLle i s f).rc.Safe := by
    intro c i s f h1 h2
    unfold Ctx.onLle
    rw [if_neg (by omega)]
    split
    · simp
    · exact h2 _ _
  have known : ∀ (t s : Nat) (f : Llme → Lle → LleRes), s < 16 → (∀ m l, (f m l).rc.Safe) →
      (c.onKnown t s f).rc.Safe := by
    intro t s f h1 h2
    unfold Ctx.onKnown
    split
    · simp
    · exact onLle _ _ _ _ h1 h2
  have susp : ∀ t b, (c.setSuspended t b).rc.Safe := by
    intro t b
    unfold Ctx.setSuspended
    split
    · simp
    · split <;> simp
  cases op with
  | xidReq t s l3 => exact known _ _ _ hs (fun m l => txXidReq_safe _ _ _ _)
  | xidResp t s l3 => exact known _ _ _ hs (fun m l => txXidResp_safe _ _ _ _)
  | establishReq t s => exact known _ _ _ hs (fun m l => by simp)
  | resetReq t iov => exact known _ _ _ (by decide) (fun m l => reset_safe _ _ _ _)
  | triggerReq t cell =>
    refine known _ _ _ (by decide) (fun m l => ?_)
    split
    · exact txFrame_safe _ _ _ _ _ _
    · exact txUi_safe _ _ _ _ _
  | suspendReq t => exact susp t true
  | resumeReq t => exact susp t false
  | unitdataReq t s prio data =>
    simp only [SapiInRange] at hs
    have hact : ∀ (m : Llme) (l : Lle), (if m.suspended ∧ s ≠ 1 then ({ lle := l } : LleRes)
        else l.txUi c.loc m.tlli prio data).rc.Safe := by
      intro m l
      split
      · simp
      · exact txUi_safe _ _ _ _ _
    simp only [Ctx.step, Ctx.unitdataReq]
    split
    · exact onLle _ _ _ _ hs hact
    · rw [if_neg (by omega)]; exact onLle _ _ _ _ hs hact
  | rxPdu t d =>
    obtain ⟨h6, hsack⟩ := hf
    simp only [Ctx.step, Ctx.rxPdu]
    split
    · simp
    · rename_i u hu
      have := (c06_decoder_safe_partial d).1 (by rw [hu]; simp)
      rcases hsack with h | h
      · omega
      · exact absurd this.1 h
    · rename_i p hp
      split
      · simp
      · split
        · simp
        · exact onLle _ _ _ _ (decode_sapi_lt hp) (fun m l => rx_safe _ _ _ _ _ (.inl h6))
  | assignReq o n =>
    simp only [Ctx.step, Ctx.assignReq]
    split
    · simp
    split
    · simp
    split
    · simp
    split <;> simp

/-- Non-vacuity of the partial C60. -/
example : SapiInRange (.rxPdu 0xc0000001 gmmFrame) ∧ FrameOk (.rxPdu 0xc0000001 gmmFrame) ∧
    ((Ctx.init .sgsn).step (.rxPdu 0xc0000001 gmmFrame)).out ≠ [] :=
  ⟨trivial, ⟨by decide +kernel, .inl (by decide +kernel)⟩, by decide +kernel⟩

end Verif.Props
