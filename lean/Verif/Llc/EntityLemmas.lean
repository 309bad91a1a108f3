import Verif.Spec.LlcUi
import Verif.Llc.PduLemmas

/-! # Lemmas about the LLC entity model -/
namespace Verif.Llc

open Verif.Spec

theorem uiCtrl_spec : ∀ nu < 512,
    (0xc0 ||| 0) ||| ((nu >>> 6) &&& 0x07) = 0xc0 + nu / 64 ∧
    (((nu &&& 0x3f) <<< 2) ||| 0) ||| 1 = (nu % 64) * 4 + 1 := by decide +kernel

theorem addr_spec : ∀ s < 16, ∀ cr : Bool, (s &&& 0x0f) ||| bit cr 6 = s + if cr then 64 else 0 := by
  decide +kernel

theorem fcsOctets_spec (f : Nat) : fcsOctets f =
    [UInt8.ofNat (f % 256), UInt8.ofNat (f / 256 % 256), UInt8.ofNat (f / 65536 % 256)] := by
  have h1 : f &&& 0xff = f % 256 := Nat.and_two_pow_sub_one_eq_mod f 8
  have h2 : (f >>> 8) &&& 0xff = f / 256 % 256 := by
    rw [show (0xff : Nat) = 2 ^ 8 - 1 from rfl, Nat.and_two_pow_sub_one_eq_mod, Nat.shiftRight_eq_div_pow]
  have h3 : (f >>> 16) &&& 0xff = f / 65536 % 256 := by
    rw [show (0xff : Nat) = 2 ^ 8 - 1 from rfl, Nat.and_two_pow_sub_one_eq_mod, Nat.shiftRight_eq_div_pow]
  simp only [fcsOctets, h1, h2, h3]

theorem encode_ui (sapi nu : Nat) (cr : Bool) (data : Octets) (hs : sapi < 16) (hn : nu < 512) :
    encode { sapi, fmt := .UI, func := .SABM, flags := { protMode := true, cmdRsp := cr }
             seqTx := nu, data } = .ok (uiFrame cr sapi nu data) := by
  obtain ⟨h1, h2⟩ := uiCtrl_spec nu hn
  have h3 := addr_spec sapi hs cr
  simp only [encode, encCtrl, encCtrlUI, encAddr, encCover, if_true, Bool.false_eq_true, if_false,
    fcsOctets_spec, uiFrame]
  simp only [bit, Bool.false_eq_true, if_false, if_true] at h3 ⊢
  rw [h1, show (1 <<< 0 : Nat) = 1 from rfl, h2, h3]
  rfl

theorem uiNu_uiFrame (cr : Bool) (sapi nu : Nat) (data : Octets) (hn : nu < 512) :
    uiNu (uiFrame cr sapi nu data) = some nu := by
  have h1 : (UInt8.ofNat (0xc0 + nu / 64)).toNat = 0xc0 + nu / 64 := by
    rw [UInt8.toNat_ofNat']; omega
  have h2 : (UInt8.ofNat ((nu % 64) * 4 + 1)).toNat = (nu % 64) * 4 + 1 := by
    rw [UInt8.toNat_ofNat']; omega
  simp only [uiNu, uiFrame, List.cons_append]
  rw [h1, h2, if_pos (by omega)]
  congr 1; omega

theorem uiNu_U {p : Pdu} {pdu : Octets} (hf : p.fmt = .U) (h : encode p = .ok pdu) : uiNu pdu = none := by
  unfold encode encCtrl at h
  rw [hf] at h
  simp only [encCtrlU] at h
  cases hc : encUCode p.func with
  | none => rw [hc] at h; cases h
  | some c =>
    rw [hc] at h
    simp only at h
    split at h
    · cases h
    injection h with h
    subst h
    have hcc : c < 16 := by
      cases hp : p.func <;> rw [hp] at hc <;> simp [encUCode] at hc <;> omega
    have key : ∀ b : Bool, ∀ c < 16, ((UInt8.ofNat ((0xe0 ||| bit b 4) ||| c)).toNat) / 32 = 7 := by
      decide +kernel
    simp only [uiNu, List.cons_append]
    split
    · rename_i heq
      injection heq with _ heq
      injection heq with h1 _
      rw [← h1, key _ _ hcc]; rfl
    · rfl

/-- What one entity-level action may do to the numbering of the UI frames it sends. -/
def UiStep (tlli : Nat) (l : Lle) (r : LleRes) : Prop :=
  r.lle.sapi = l.sapi ∧
  (((∀ t s, sentNus t s r.out = []) ∧ r.lle.vuSend = l.vuSend) ∨
   (sentNus tlli l.sapi r.out = [l.vuSend] ∧ (∀ t s, (t, s) ≠ (tlli, l.sapi) → sentNus t s r.out = []) ∧
     r.lle.vuSend = (l.vuSend + 1) % 512))

theorem sentNus_append (t s : Nat) (a b : List Out) :
    sentNus t s (a ++ b) = sentNus t s a ++ sentNus t s b := by simp [sentNus]

theorem txFrame_ui {loc : Location} {t s prio : Nat} {l : Lle} {p : Pdu} (hf : p.fmt = .U) :
    (txFrame loc t s prio l p).lle = l ∧ ∀ t' s', sentNus t' s' (txFrame loc t s prio l p).out = [] := by
  unfold txFrame
  cases h : encode p with
  | err e => simp [sentNus]
  | ub u => simp [sentNus]
  | ok pdu =>
    refine ⟨rfl, fun t' s' => ?_⟩
    simp [sentNus, uiNu_U hf h]

theorem txUi_step (loc : Location) (tlli prio : Nat) (l : Lle) (data : Octets)
    (hs : l.sapi < 16) (hn : l.vuSend < 512) : UiStep tlli l (l.txUi loc tlli prio data) := by
  unfold Lle.txUi
  split
  · exact ⟨rfl, .inl ⟨fun _ _ => rfl, rfl⟩⟩
  · rw [encode_ui _ _ _ _ hs hn]
    refine ⟨rfl, .inr ⟨?_, ?_, rfl⟩⟩
    · simp [sentNus, uiNu_uiFrame _ _ _ _ hn]
    · intro t s hne
      simp only [sentNus, List.filterMap_cons, List.filterMap_nil]
      rw [if_neg]
      rintro ⟨rfl, rfl⟩
      exact hne rfl

theorem uiStep_same {tlli : Nat} {l : Lle} {r : LleRes} (h1 : r.lle.sapi = l.sapi)
    (h2 : r.lle.vuSend = l.vuSend) (h3 : ∀ t s, sentNus t s r.out = []) : UiStep tlli l r :=
  ⟨h1, .inl ⟨h3, h2⟩⟩

theorem txXid_same (loc : Location) (tlli : Nat) (l : Lle) (w : Octets) (b : Bool) :
    (l.txXid loc tlli w b).lle = l ∧ ∀ t s, sentNus t s (l.txXid loc tlli w b).out = [] :=
  txFrame_ui rfl

theorem txXidReq_step (loc : Location) (tlli : Nat) (l : Lle) (l3 : Option Octets) :
    UiStep tlli l (l.txXidReq loc tlli l3) := by
  unfold Lle.txXidReq
  simp only
  split
  · split
    · obtain ⟨h1, h2⟩ := txXid_same loc tlli { l with xid := l.xidFields l3 } _ true
      exact uiStep_same (by rw [h1]) (by rw [h1]) h2
    · exact uiStep_same rfl rfl (fun _ _ => rfl)
  · exact uiStep_same rfl rfl (fun _ _ => rfl)
  · exact uiStep_same rfl rfl (fun _ _ => rfl)

theorem txXidResp_same (loc : Location) (tlli : Nat) (l : Lle) (l3 : Octets) :
    (l.txXidResp loc tlli l3).lle = { l with rxXid := [] } ∧
    ∀ t s, sentNus t s (l.txXidResp loc tlli l3).out = [] := by
  unfold Lle.txXidResp
  simp only
  split
  · exact txXid_same loc tlli _ _ _
  · exact ⟨rfl, fun _ _ => rfl⟩
  · exact ⟨rfl, fun _ _ => rfl⟩

theorem txXidResp_step (loc : Location) (tlli : Nat) (l : Lle) (l3 : Octets) :
    UiStep tlli l (l.txXidResp loc tlli l3) := by
  obtain ⟨h1, h2⟩ := txXidResp_same loc tlli l l3
  exact uiStep_same (by rw [h1]) (by rw [h1]) h2

theorem processXidInd_same (loc : Location) (tlli : Nat) (l : Lle) (d : Octets) :
    (l.processXidInd loc tlli d).lle.sapi = l.sapi ∧
    (l.processXidInd loc tlli d).lle.vuSend = l.vuSend ∧
    ∀ t s, sentNus t s (l.processXidInd loc tlli d).out = [] := by
  unfold Lle.processXidInd
  split
  · exact ⟨rfl, rfl, fun _ _ => rfl⟩
  · exact ⟨rfl, rfl, fun _ _ => rfl⟩
  · simp only
    split
    · refine ⟨rfl, rfl, fun t s => ?_⟩
      dsimp only
      split <;> simp [sentNus]
    · obtain ⟨h1, h2⟩ := txXidResp_same loc tlli
        { l with params := (List.foldl xidIndField (l.params, false) ‹List XidField›).1, rxXid := ‹_› } []
      refine ⟨by rw [h1], by rw [h1], fun t s => ?_⟩
      rw [sentNus_append, h2]
      split <;> simp [sentNus]

theorem processXidConf_same (tlli : Nat) (l : Lle) (d : Octets) :
    (l.processXidConf tlli d).lle.sapi = l.sapi ∧
    (l.processXidConf tlli d).lle.vuSend = l.vuSend ∧
    ∀ t s, sentNus t s (l.processXidConf tlli d).out = [] := by
  unfold Lle.processXidConf
  split
  · exact ⟨rfl, rfl, fun _ _ => rfl⟩
  · exact ⟨rfl, rfl, fun _ _ => rfl⟩
  · refine ⟨rfl, rfl, fun t s => ?_⟩
    dsimp only
    split
    · simp [sentNus, List.filterMap_map, Function.comp_def]
    · simp [sentNus]

theorem acceptUi_same (l : Lle) (nu : Nat) :
    (l.acceptUi nu).1.sapi = l.sapi ∧ (l.acceptUi nu).1.vuSend = l.vuSend ∧
    (l.acceptUi nu).1.params = l.params := by
  unfold Lle.acceptUi
  simp only
  split
  · split
    · simp
    · split <;> simp
  · simp

theorem deliver_same (t s : Nat) (tlli sapi : Nat) (d : Octets) :
    sentNus t s (deliverUi tlli sapi d).1 = [] := by
  unfold deliverUi
  split
  · rfl
  · split <;> simp [sentNus]

theorem rx_step (loc : Location) (tlli : Nat) (l : Lle) (d : Octets) (p : Decoded) :
    UiStep tlli l (l.rx loc tlli d p) := by
  unfold Lle.rx
  split
  · exact uiStep_same rfl rfl (fun _ _ => rfl)
  split
  · split
    · exact uiStep_same rfl rfl (fun _ _ => rfl)
    · exact uiStep_same rfl rfl (fun _ _ => rfl)
  split
  · obtain ⟨h1, h2⟩ := txFrame_ui (loc := .sgsn) (t := tlli) (s := 0) (prio := 0) (l := l)
      (p := { sapi := l.sapi, fmt := .U, func := .DM, flags := { follFin := true } }) rfl
    exact uiStep_same (by rw [Lle.txDm, h1]) (by rw [Lle.txDm, h1]) h2
  · obtain ⟨h1, h2⟩ := txFrame_ui (loc := .sgsn) (t := tlli) (s := 0) (prio := 0) (l := l)
      (p := { sapi := l.sapi, fmt := .U, func := .DM, flags := { follFin := true } }) rfl
    exact uiStep_same (by rw [Lle.txDm, h1]) (by rw [Lle.txDm, h1]) h2
  · simp only
    split
    · obtain ⟨h1, h2, h3⟩ := processXidInd_same loc tlli l (p.payload d)
      exact uiStep_same h1 h2 h3
    · obtain ⟨h1, h2, h3⟩ := processXidConf_same tlli l (p.payload d)
      exact uiStep_same h1 h2 h3
  · obtain ⟨h1, h2, _⟩ := acceptUi_same l p.seqTx
    split
    · rename_i heq
      rw [heq] at h1 h2
      exact uiStep_same h1 h2 (fun _ _ => rfl)
    · rename_i heq
      rw [heq] at h1 h2
      exact uiStep_same h1 h2 (fun t s => deliver_same t s _ _ _)
  · exact uiStep_same rfl rfl (fun _ _ => rfl)

end Verif.Llc
