import Verif.Llc.Ciph
import Verif.Props.LlcEntity

/-!
# C188: ciphering

A UI frame consists of the address, two octets of control field, the information field and the FCS; the bit of
value 2 of the second octet of the control field (E) says that information field and FCS are ciphered (3GPP TS
44.064, 6.3.5.1, 6.4.3).
-/
namespace Verif.Props

open Verif.Spec Verif.Llc

/-- The UI frame says that it is ciphered. -/
def saysCiphered (f : Octets) : Bool := f[2]?.any fun o => o &&& 2 != 0

/-- **C188** When a TLLI has been assigned with an algorithm other than GEA/0, data to be ciphered is sent in
frames that say so and do not show the data; and data received in ciphered frames is not handed up as it came. -/
def C188Statement : Prop :=
  (∀ (loc : Location) (ops : List CiphOp) (old tlli gea sapi prio : Nat) (kc data : Octets), sapi < 16 → gea ≠ 0 → data ≠ [] →
    let c := ((Ctx.init loc).crun (ops ++ [.assignReq old tlli gea kc])).1
    ∀ b t s p f, .down b t s p f ∈ (c.step (CiphOp.unitdataReq tlli sapi prio data true).plain).out →
      saysCiphered f = true ∧ (f.drop 3).take data.length ≠ data) ∧
  ∀ (c : Ctx) (tlli : Nat) (f : Octets) (p : Decoded), decode f = .ok p → p.flags.encMode = true →
    (c.step (.rxPdu tlli f)).out = []

/-- Whatever was assigned before and whatever is asked for: a request is answered with a frame that says it is not
ciphered and shows the data. -/
theorem c188_in_the_clear (loc : Location) (ops : List CiphOp) (tlli sapi prio : Nat) (data : Octets) (gea : Bool)
    (m : Llme) (hs : sapi < 16) (hm : Serves ((Ctx.init loc).crun ops).1 tlli sapi m)
    (hsus : m.suspended = false ∨ sapi = 1) (hlen : data.length ≤ (m.lle sapi).params.n201u) :
    ∃ f, (((Ctx.init loc).crun ops).1.step (CiphOp.unitdataReq tlli sapi prio data gea).plain).out =
        [.down (((Ctx.init loc).crun ops).1.loc == .sgsn) m.tlli sapi prio f] ∧
      saysCiphered f = false ∧ (f.drop 3).take data.length = data := by
  obtain ⟨_, nu, hn, h⟩ := (c12_oversize_or_once loc (ops.map CiphOp.plain) tlli sapi prio data m hs hm hsus).2 hlen
  refine ⟨_, h, ?_, ?_⟩
  · have : ∀ k, k < 64 → ((UInt8.ofNat (k * 4 + 1)) &&& 2 != 0) = false := by decide +kernel
    exact this (nu % 64) (by omega)
  · unfold uiFrame
    simp

/-- A received frame that says it is ciphered causes nothing to be handed up, in any state. -/
theorem c188_partial (c : Ctx) (tlli : Nat) (f : Octets) (p : Decoded) (hd : decode f = .ok p)
    (he : p.flags.encMode = true) : (c.step (.rxPdu tlli f)).out = [] := by
  show (c.rxPdu tlli f).out = []
  unfold Ctx.rxPdu
  rw [hd]
  simp only
  split
  · rfl
  · split
    · rfl
    · unfold Ctx.onLle
      split
      · rfl
      · split
        · rfl
        · dsimp only
          unfold Lle.rx
          rw [if_pos he]

/-- The mobile station is assigned GEA/3 with a key, and user data to be ciphered leaves in the clear. -/
theorem c188_violated : ¬ C188Statement := by
  intro h
  let ops : List CiphOp := [.unitdataReq 0xc0000001 1 1 [8, 1] false]
  have h := h.1 .ms ops tlliUnassigned 0xc0000001 3 3 2 [1, 2, 3, 4, 5, 6, 7, 8] [0x45, 0, 0, 20] (by decide) (by decide) (by decide)
  have hm : Serves ((Ctx.init .ms).crun (ops ++ [.assignReq tlliUnassigned 0xc0000001 3 [1, 2, 3, 4, 5, 6, 7, 8]])).1 0xc0000001 3
      ((((Ctx.init .ms).crun (ops ++ [.assignReq tlliUnassigned 0xc0000001 3 [1, 2, 3, 4, 5, 6, 7, 8]])).1.llmes[0]?).getD (Llme.alloc 0)) :=
    .inl ⟨0, by decide +kernel, rfl⟩
  obtain ⟨f, h1, h2, _⟩ := c188_in_the_clear .ms _ 0xc0000001 3 2 [0x45, 0, 0, 20] true _ (by decide) hm (.inl (by decide +kernel)) (by decide +kernel)
  obtain ⟨h3, _⟩ := h _ _ _ _ f (by rw [h1]; exact List.mem_singleton.mpr rfl)
  rw [h2] at h3
  cases h3

/-- Not vacuous: a frame that says it is ciphered. -/
example : ∃ p, decode [0x41, 0xc0, 0x03, 1, 2, 3, 4, 5] = .ok p ∧ p.flags.encMode = true := by
  have h : (match decode [0x41, 0xc0, 0x03, 1, 2, 3, 4, 5] with
    | .ok p => p.flags.encMode
    | _ => false) = true := by decide +kernel
  cases e : decode [0x41, 0xc0, 0x03, 1, 2, 3, 4, 5] with
  | ok p => rw [e] at h; exact ⟨p, rfl, h⟩
  | err x => rw [e] at h; cases h
  | ub x => rw [e] at h; cases h

end Verif.Props
