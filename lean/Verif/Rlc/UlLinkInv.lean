import Verif.Spec.UlLink
import Verif.Rlc.WindowUlInv
import Verif.Rlc.BlockLemmas
import Mathlib.Data.List.Forall2

/-!
# Invariant of the uplink transfer over a lossy link
-/
namespace Verif.Rlc

open Verif.Spec

structure NetOk (t : UlNet) : Prop where
  above : ∀ n, t.vr ≤ n → t.got n = none
  top : t.vr ≠ 0 → (t.got (t.vr - 1)).isSome

theorem vq_spec (t : UlNet) (h : NetOk t) :
    (∀ n, n < t.vq → (t.got n).isSome) ∧ t.got t.vq = none ∧ t.vq ≤ t.vr := by
  have key : ∀ k : Nat, k ≤ t.vr → (∀ n, n < k → (t.got n).isSome) → (k < t.vr → t.got k = none) → t.vq = k := by
    intro k h1 h2 h3
    unfold UlNet.vq
    obtain ⟨d, hd⟩ := Nat.le.dest h1
    rw [← hd, List.range_add, List.takeWhile_append_of_pos (by
      intro a ha; exact h2 a (List.mem_range.1 ha))]
    cases d with
    | zero => simp
    | succ d =>
      rw [List.range_succ_eq_map, List.map_cons, List.takeWhile_cons]
      have := h3 (by omega)
      simp [this]
  have ex : ∃ k, k ≤ t.vr ∧ (∀ n, n < k → (t.got n).isSome) ∧ (k < t.vr → t.got k = none) := by
    have : ∀ m, m ≤ t.vr → (∃ k, k ≤ t.vr ∧ (∀ n, n < k → (t.got n).isSome) ∧ (k < t.vr → t.got k = none)) ∨
        ∀ n, n < m → (t.got n).isSome := by
      intro m
      induction m with
      | zero => intro _; right; intro n hn; omega
      | succ m ih =>
        intro hm
        rcases ih (by omega) with h1 | h1
        · exact Or.inl h1
        · cases hg : t.got m with
          | none => exact Or.inl ⟨m, by omega, h1, fun _ => hg⟩
          | some b =>
            right
            intro n hn
            by_cases he : n = m
            · subst he; simp [hg]
            · exact h1 n (by omega)
    rcases this t.vr (Nat.le_refl _) with h1 | h1
    · exact h1
    · exact ⟨t.vr, Nat.le_refl _, h1, fun hx => absurd hx (by omega)⟩
  obtain ⟨k, h1, h2, h3⟩ := ex
  have hk := key k h1 h2 h3
  rw [hk]
  refine ⟨h2, ?_, h1⟩
  by_cases he : k < t.vr
  · exact h3 he
  · exact h.above k (by omega)

theorem le_vq {t : UlNet} (h : NetOk t) {k : Nat} (hk : ∀ n, n < k → (t.got n).isSome) : k ≤ t.vq := by
  rcases Nat.lt_or_ge t.vq k with h1 | h1
  · have := hk _ h1
    rw [(vq_spec t h).2.1] at this
    cases this
  · exact h1

/-- What one receiver state has, the other has too. -/
def Has (u t : UlNet) : Prop := ∀ n b, t.got n = some b → u.got n = some b

theorem Has.isSome {u t : UlNet} (h : Has u t) {n : Nat} (hn : (t.got n).isSome) : (u.got n).isSome := by
  obtain ⟨b, hb⟩ := Option.isSome_iff_exists.1 hn
  rw [h n b hb]; rfl

theorem Has.trans {u t r : UlNet} (h : Has u t) (h' : Has t r) : Has u r := fun n b hb => h n b (h' n b hb)

theorem Has.vq {u t : UlNet} (h : Has u t) (hu : NetOk u) (ht : NetOk t) : t.vq ≤ u.vq :=
  le_vq hu fun n hn => h.isSome ((vq_spec t ht).1 n hn)

/-- A block with number `n` close to the window arrives. -/
theorem take_spec {t : UlNet} (h : NetOk t) {n : Nat} {b : UlBlock} (h1 : n < t.vq + 64) (h2 : t.vq ≤ n + 64) :
    NetOk (t.take (n % 128) b) ∧ Has (t.take (n % 128) b) t ∧
      (∀ m c, (t.take (n % 128) b).got m = some c → t.got m = some c ∨ (m = n ∧ c = b)) ∧
      (t.take (n % 128) b).vr ≤ max t.vr (n + 1) ∧ ((t.take (n % 128) b).got n).isSome := by
  have hq := vq_spec t h
  by_cases hlt : n < t.vq
  · have e : t.vq + (n % 128 + 128 - t.vq % 128) % 128 = n + 128 := by omega
    have : t.take (n % 128) b = t := by
      unfold UlNet.take
      simp only [e]
      rw [if_neg (by omega)]
    rw [this]
    exact ⟨h, fun _ _ x => x, fun m c x => Or.inl x, by omega, hq.1 n hlt⟩
  · have e : t.vq + (n % 128 + 128 - t.vq % 128) % 128 = n := by omega
    by_cases hg : t.got n = none
    · have : t.take (n % 128) b = { got := fun k => if k = n then some b else t.got k, vr := max t.vr (n + 1) } := by
        unfold UlNet.take
        simp only [e]
        rw [if_pos ⟨h1, hg⟩]
      rw [this]
      refine ⟨⟨?_, ?_⟩, ?_, ?_, Nat.le_refl _, by simp⟩
      · intro m hm
        simp only at hm ⊢
        rw [if_neg (by omega)]
        exact h.above m (by omega)
      · intro _
        simp only
        by_cases hv : t.vr ≤ n
        · rw [if_pos (by omega)]; rfl
        · have : max t.vr (n + 1) - 1 = t.vr - 1 := by omega
          rw [this]
          by_cases he : t.vr - 1 = n
          · rw [if_pos he]; rfl
          · rw [if_neg he]; exact h.top (by omega)
      · intro m c hc
        simp only
        rw [if_neg (by intro he; subst he; rw [hg] at hc; cases hc)]
        exact hc
      · intro m c hc
        simp only at hc
        by_cases he : m = n
        · rw [if_pos he] at hc
          injection hc with hc
          exact Or.inr ⟨he, hc.symm⟩
        · rw [if_neg he] at hc
          exact Or.inl hc
    · have : t.take (n % 128) b = t := by
        unfold UlNet.take
        simp only [e]
        rw [if_neg (fun hx => hg hx.2)]
      rw [this]
      exact ⟨h, fun _ _ x => x, fun m c x => Or.inl x, by omega, Option.isSome_iff_ne_none.2 hg⟩

/-- A block under way: what number it has, and that it is close to the receiver's window. -/
structure Under (s : UlLink) (x : Nat × UlBlock) (n : Nat) : Prop where
  bsn : x.1 = n % 128
  blk : s.composed[n]? = some x.2
  lo : s.net.vr ≤ n + 64
  hi : n < s.net.vq + 64

structure LinkInv (s : UlLink) (h : UlNotes) (ns : List Nat) (sn : List UlNet) : Prop where
  win : UlInv s.tx.w h
  sent : h.sent = s.composed.length
  blks : ∀ n, n < h.sent → h.sent ≤ n + 128 → s.tx.blks (n % 128) = s.composed[n]?
  net : NetOk s.net
  got : ∀ n b, s.net.got n = some b → s.composed[n]? = some b
  up : List.Forall₂ (Under s) s.up ns
  order : ns.Pairwise fun a b => a < b + 64
  down : List.Forall₂ (fun d t => UlNet.Truthful t d) s.down sn
  chain : sn.Pairwise fun a b => Has b a
  snaps : ∀ t ∈ sn, NetOk t ∧ Has s.net t ∧ ∀ n, h.news n = .acked → (t.got n).isSome
  acked : ∀ n, h.news n = .acked → (s.net.got n).isSome
  unfin : s.tx.finished = false → ∀ b ∈ s.composed, b.cv ≠ 0
  fin : s.tx.finished = true → ∃ l b, s.composed = l ++ [b] ∧ b.cv = 0 ∧ ∀ x ∈ l, x.cv ≠ 0
  frames : ∀ m ∈ s.tx.q, m ≠ []
  start : s.composed = [] → s.tx.q = s.offered

theorem LinkInv.base_le_vq {s : UlLink} {h : UlNotes} {ns : List Nat} {sn : List UlNet} (i : LinkInv s h ns sn) :
    h.base ≤ s.net.vq := le_vq i.net fun n hn => i.acked n ((base_spec h).2.1 n hn)

theorem LinkInv.vr_le {s : UlLink} {h : UlNotes} {ns : List Nat} {sn : List UlNet} (i : LinkInv s h ns sn) {t : UlNet}
    (ht : NetOk t) (hs : Has s.net t) : t.vr ≤ h.sent := by
  rcases Nat.eq_zero_or_pos t.vr with h0 | h0
  · omega
  · obtain ⟨b, hb⟩ := Option.isSome_iff_exists.1 (ht.top (by omega))
    have := i.got _ _ (hs _ _ hb)
    have := (List.getElem?_eq_some_iff.1 this).1
    rw [i.sent]; omega

theorem LinkInv.init (q : List Octets) (hq : ∀ f ∈ q, f ≠ []) : LinkInv (UlLink.init q) UlNotes.init [] [] where
  win := UlInv.init
  sent := rfl
  blks := by intro n hn; simp [UlNotes.init] at hn
  net := ⟨fun _ _ => rfl, fun h => absurd rfl h⟩
  got := by intro n b hb; simp [UlLink.init] at hb
  up := .nil
  order := .nil
  down := .nil
  chain := .nil
  snaps := by intro t ht; simp at ht
  acked := by intro n hn; simp [UlNotes.init] at hn
  unfin := by intro _ b hb; simp [UlLink.init] at hb
  fin := by intro h; simp [UlLink.init, UlTx.init] at h
  frames := hq
  start := fun _ => rfl

theorem createBlock_ok {len cv : Nat} {tlli : Option Nat} {q : List Octets}
    (h1 : hdrLen tlli < len) (h2 : len < 64) (hq : q ≠ []) (hne : ∀ m ∈ q, m ≠ []) :
    ∃ b q', createBlock len cv tlli q = .ok (b, q') ∧ (∀ m ∈ q', m ≠ []) := by
  obtain ⟨ds, c1, c2, c3, c4, c5⟩ := clean_spec (decide (cv = 0)) q (len - hdrLen tlli) [] (by omega) (by omega) hne
  exact ⟨_, _, createBlock_clean len cv tlli q h1 h2 hq hne, c4⟩

theorem idx_small (n : Nat) : idx (n % 128) = n % 128 := by
  rw [idx_eq]; omega

theorem getElem?_append_some {α : Type} {l r : List α} {n : Nat} {x : α} (h : l[n]? = some x) :
    (l ++ r)[n]? = some x := by
  have := (List.getElem?_eq_some_iff.1 h).1
  rw [List.getElem?_append_left this, h]

theorem Under.mono {s s' : UlLink} {x : Nat × UlBlock} {n : Nat} (u : Under s x n)
    (hc : ∀ (n : Nat) (b : UlBlock), s.composed[n]? = some b → s'.composed[n]? = some b) (hn : s'.net = s.net) : Under s' x n :=
  ⟨u.bsn, hc _ _ u.blk, by rw [hn]; exact u.lo, by rw [hn]; exact u.hi⟩

theorem mem_ns {s : UlLink} {up : List (Nat × UlBlock)} {ns : List Nat} (h : List.Forall₂ (Under s) up ns) :
    ∀ n ∈ ns, ∃ x ∈ up, Under s x n := by
  induction h with
  | nil => simp
  | cons hx _ ih =>
    intro n hn
    rcases List.mem_cons.1 hn with rfl | hn
    · exact ⟨_, List.mem_cons_self, hx⟩
    · obtain ⟨x, a, b⟩ := ih n hn
      exact ⟨x, List.mem_cons_of_mem _ a, b⟩

/-- Every block under way has been composed. -/
theorem LinkInv.ns_lt {s : UlLink} {h : UlNotes} {ns : List Nat} {sn : List UlNet} (i : LinkInv s h ns sn) :
    ∀ n ∈ ns, n < h.sent := by
  intro n hn
  obtain ⟨x, _, u⟩ := mem_ns i.up n hn
  rw [i.sent]
  exact (List.getElem?_eq_some_iff.1 u.blk).1

/-- With data, an empty window and the TBF not finished, the next block is a new one. -/
theorem not_filler {w : UlWin} {h : UlNotes} (i : UlInv w h) {c : UlTxCtx} {w' : UlWin} {bsn : Nat}
    (hf : c.finished = false) (hd : c.haveData = true) (he : h.base = h.sent) :
    UlWin.takeNext c 2 w ≠ some (w', bsn, .filler) := by
  have hnone : w.resendNeeded = none := by
    rcases i.resendNeeded with ⟨a, _⟩ | ⟨m, a, b, _⟩
    · exact a
    · omega
  have hs : w.stalled = false := by
    cases hw : w.stalled with
    | false => rfl
    | true => have := i.stalled.mp hw; omega
  rw [takeNext_none hnone, hf, hs, hd]
  simp [UlWin.newTx]

/-- The block sent next: its number, that the store has it, and the state after it. -/
theorem LinkInv.send {s : UlLink} {h : UlNotes} {ns : List Nat} {sn : List UlNet} (i : LinkInv s h ns sn)
    (r : UlTxReq) (hoff : s.offered ≠ []) (h1 : hdrLen r.tlli < r.len) (h2 : r.len < 64) :
    ∃ s' w' bsn k n, UlWin.takeNext ⟨s.tx.finished, decide (s.tx.q ≠ []), r.preemptive⟩ 2 s.tx.w = some (w', bsn, k) ∧
      RtsSpec ⟨s.tx.finished, decide (s.tx.q ≠ []), r.preemptive⟩ h bsn k ∧
      s.step (.send r) = .ok s' ∧
      LinkInv s' (h.note (.rts ⟨s.tx.finished, decide (s.tx.q ≠ []), r.preemptive⟩) (some (bsn, k))) (ns ++ [n]) sn ∧
      bsn = n % 128 ∧ s'.net = s.net ∧ s'.down = s.down ∧ s'.done = s.done ∧ s'.offered = s.offered ∧
      (k = .new → n = h.sent ∧ ∃ b, createBlock r.len r.cv r.tlli s.tx.q = .ok (b, s'.tx.q) ∧
        s'.composed = s.composed ++ [b] ∧ s'.tx.finished = (s.tx.finished || decide (b.cv = 0))) ∧
      (k ≠ .new → s'.composed = s.composed ∧ s'.tx.q = s.tx.q ∧ s'.tx.finished = s.tx.finished) ∧
      (k = .retransmit → h.base ≤ n ∧ n < h.sent ∧ h.news n ≠ .acked) := by
  have hb := base_spec h
  obtain ⟨w', bsn, k, e1, e2, e3⟩ := rts_spec i.win ⟨s.tx.finished, decide (s.tx.q ≠ []), r.preemptive⟩
  have hle := i.win.le
  have hbq := i.base_le_vq
  have hvr := i.vr_le i.net (fun _ _ x => x)
  -- the invariant of a block that has been composed before
  have old : ∀ n, n < h.sent → h.sent ≤ n + 64 → k ≠ .new → bsn = n % 128 →
      (k = .retransmit → h.base ≤ n ∧ n < h.sent ∧ h.news n ≠ .acked) →
      ∃ s' w' bsn k n, UlWin.takeNext ⟨s.tx.finished, decide (s.tx.q ≠ []), r.preemptive⟩ 2 s.tx.w = some (w', bsn, k) ∧
      RtsSpec ⟨s.tx.finished, decide (s.tx.q ≠ []), r.preemptive⟩ h bsn k ∧
      s.step (.send r) = .ok s' ∧
      LinkInv s' (h.note (.rts ⟨s.tx.finished, decide (s.tx.q ≠ []), r.preemptive⟩) (some (bsn, k))) (ns ++ [n]) sn ∧
      bsn = n % 128 ∧ s'.net = s.net ∧ s'.down = s.down ∧ s'.done = s.done ∧ s'.offered = s.offered ∧
      (k = .new → n = h.sent ∧ ∃ b, createBlock r.len r.cv r.tlli s.tx.q = .ok (b, s'.tx.q) ∧
        s'.composed = s.composed ++ [b] ∧ s'.tx.finished = (s.tx.finished || decide (b.cv = 0))) ∧
      (k ≠ .new → s'.composed = s.composed ∧ s'.tx.q = s.tx.q ∧ s'.tx.finished = s.tx.finished) ∧
      (k = .retransmit → h.base ≤ n ∧ n < h.sent ∧ h.news n ≠ .acked) := by
    intro n n1 n2 hk hn hrt
    have hst := i.blks n n1 (by omega)
    have hlt : n < s.composed.length := by rw [← i.sent]; exact n1
    rw [List.getElem?_eq_getElem hlt] at hst
    have hfin : (s.tx.finished || decide ((s.composed[n]).cv = 0)) = s.tx.finished := by
      cases hf : s.tx.finished with
      | true => rfl
      | false => simp [i.unfin hf _ (List.getElem_mem hlt)]
    have hstep : s.step (.send r) = .ok { s with
        tx := { s.tx with w := w', finished := s.tx.finished }
        up := s.up ++ [(bsn, s.composed[n])] } := by
      have hdc : s.tx.dataCreate r = .ok ({ s.tx with w := w', finished := s.tx.finished }, bsn, s.composed[n], k) := by
        unfold UlTx.dataCreate
        rw [e1]
        have hst' : s.tx.blks (idx bsn) = some s.composed[n] := by rw [hn, idx_small]; exact hst
        cases k with
        | new => exact absurd rfl hk
        | retransmit => simp only [hst', hfin]
        | filler => simp only [hst', hfin]
      unfold UlLink.step
      simp only [hdc, Res.bind_ok, if_neg hk]
    have hnotes : ∀ m, (h.note (.rts ⟨s.tx.finished, decide (s.tx.q ≠ []), r.preemptive⟩) (some (bsn, k))).news m =
        .acked → h.news m = .acked := by
      intro m
      cases k with
      | new => exact absurd rfl hk
      | filler => exact fun x => x
      | retransmit =>
        simp only [UlNotes.note]
        split
        · intro hx; cases hx
        · exact fun x => x
    have hsent : (h.note (.rts ⟨s.tx.finished, decide (s.tx.q ≠ []), r.preemptive⟩) (some (bsn, k))).sent = h.sent := by
      cases k with
      | new => exact absurd rfl hk
      | filler => rfl
      | retransmit => rfl
    refine ⟨_, w', bsn, k, n, e1, e3, hstep, ?_, hn, rfl, rfl, rfl, rfl, fun x => absurd x hk, fun _ => ⟨rfl, rfl, rfl⟩, hrt⟩
    exact {
      win := e2
      sent := by rw [hsent]; exact i.sent
      blks := by rw [hsent]; exact i.blks
      net := i.net
      got := i.got
      up := by
        refine List.rel_append (i.up.imp fun _ _ u => u.mono (fun _ _ y => y) rfl) ?_
        exact .cons ⟨hn, List.getElem?_eq_getElem hlt, by show s.net.vr ≤ n + 64; omega, by show n < s.net.vq + 64; omega⟩ .nil
      order := by
        refine List.pairwise_append.2 ⟨i.order, List.pairwise_singleton _ _, ?_⟩
        intro a ha b hb'
        rw [List.mem_singleton.1 hb']
        have := i.ns_lt a ha
        omega
      down := i.down
      chain := i.chain
      snaps := fun t ht => ⟨(i.snaps t ht).1, (i.snaps t ht).2.1, fun m hm => (i.snaps t ht).2.2 m (hnotes m hm)⟩
      acked := fun m hm => i.acked m (hnotes m hm)
      unfin := i.unfin
      fin := i.fin
      frames := i.frames
      start := i.start }
  cases k with
  | retransmit =>
    obtain ⟨m, m1, m2, m3, m4, _⟩ := e3.retransmit rfl
    exact old m m2 (by omega) nofun m3 fun _ => ⟨m1, m2, m4⟩
  | filler =>
    obtain ⟨f1, _, _⟩ := e3.filler rfl
    rcases Nat.eq_zero_or_pos h.sent with h0 | h0
    · exfalso
      have hc : s.composed = [] := List.length_eq_zero_iff.1 (by rw [← i.sent]; exact h0)
      have hq := i.start hc
      have hf : s.tx.finished = false := by
        cases hf : s.tx.finished with
        | false => rfl
        | true =>
          obtain ⟨l, b, e, _⟩ := i.fin hf
          rw [hc] at e
          have := congrArg List.length e
          simp at this
      exact not_filler i.win (c := ⟨s.tx.finished, decide (s.tx.q ≠ []), r.preemptive⟩) hf (by simp [hq, hoff]) (by omega) e1
    · exact old (h.sent - 1) (by omega) (by omega) nofun (by rw [f1]; omega) nofun
  | new =>
    obtain ⟨n1, n2, n3, n4, n5⟩ := e3.new rfl
    simp only [decide_eq_true_eq] at n3
    simp only at n4
    obtain ⟨b, q', c1, c2⟩ := createBlock_ok (cv := r.cv) h1 h2 n3 i.frames
    have hstep : s.step (.send r) = .ok { s with
        tx := UlTx.mk w' (upd s.tx.blks (idx bsn) (some b)) q' (s.tx.finished || decide (b.cv = 0))
        up := s.up ++ [(bsn, b)]
        composed := s.composed ++ [b] } := by
      have hdc : s.tx.dataCreate r = .ok (UlTx.mk w' (upd s.tx.blks (idx bsn) (some b)) q'
          (s.tx.finished || decide (b.cv = 0)), bsn, b, .new) := by
        unfold UlTx.dataCreate
        rw [e1]
        simp only [c1, Res.bind_ok]
      unfold UlLink.step
      simp only [hdc, Res.bind_ok, if_true]
    refine ⟨_, w', bsn, .new, h.sent, e1, e3, hstep, ?_, n1, rfl, rfl, rfl, rfl, fun _ => ⟨rfl, b, c1, rfl, rfl⟩,
      fun x => absurd rfl x, nofun⟩
    have hcomp : ∀ n x, s.composed[n]? = some x → (s.composed ++ [b])[n]? = some x := fun n x => getElem?_append_some
    have hacked : ∀ m, (h.note (.rts ⟨s.tx.finished, decide (s.tx.q ≠ []), r.preemptive⟩) (some (bsn, .new))).news m =
        .acked → h.news m = .acked := by
      intro m
      simp only [UlNotes.note]
      split
      · intro hx; cases hx
      · exact fun x => x
    exact {
      win := e2
      sent := by simp [UlNotes.note, i.sent]
      blks := by
        intro n hn1 hn2
        simp only [UlNotes.note] at hn1 hn2
        simp only [upd_apply, n1, idx_small]
        by_cases he : n = h.sent
        · subst he
          rw [if_pos rfl, List.getElem?_append_right (by rw [i.sent]; exact Nat.le_refl _), i.sent]
          simp
        · rw [if_neg (by omega), i.blks n (by omega) (by omega)]
          rw [List.getElem?_append_left (by rw [← i.sent]; omega)]
      net := i.net
      got := fun n x hx => hcomp n x (i.got n x hx)
      up := by
        refine List.rel_append (i.up.imp fun _ _ u => u.mono hcomp rfl) ?_
        refine .cons ⟨n1, ?_, by show s.net.vr ≤ h.sent + 64; omega, by show h.sent < s.net.vq + 64; omega⟩ .nil
        show (s.composed ++ [b])[h.sent]? = some b
        rw [List.getElem?_append_right (by rw [i.sent]; exact Nat.le_refl _), i.sent]
        simp
      order := by
        refine List.pairwise_append.2 ⟨i.order, List.pairwise_singleton _ _, ?_⟩
        intro a ha c hc
        rw [List.mem_singleton.1 hc]
        have := i.ns_lt a ha
        omega
      down := i.down
      chain := i.chain
      snaps := fun t ht => ⟨(i.snaps t ht).1, (i.snaps t ht).2.1, fun m hm => (i.snaps t ht).2.2 m (hacked m hm)⟩
      acked := fun m hm => i.acked m (hacked m hm)
      unfin := by
        intro hf x hx
        simp only [n4, Bool.false_or, decide_eq_false_iff_not] at hf
        rcases List.mem_append.1 hx with hx | hx
        · exact i.unfin n4 x hx
        · rw [List.mem_singleton.1 hx]; exact hf
      fin := by
        intro hf
        simp only [n4, Bool.false_or, decide_eq_true_eq] at hf
        exact ⟨s.composed, b, rfl, hf, i.unfin n4⟩
      frames := c2
      start := by intro hx; simp at hx }

theorem LinkInv.frame {s : UlLink} {h : UlNotes} {ns : List Nat} {sn : List UlNet} (i : LinkInv s h ns sn)
    (f : Octets) (hf : f ≠ []) : ∃ s', s.step (.frame f) = .ok s' ∧ LinkInv s' h ns sn :=
  ⟨_, rfl, {
    win := i.win
    sent := i.sent
    blks := i.blks
    net := i.net
    got := i.got
    up := i.up.imp fun _ _ u => u.mono (fun _ _ y => y) rfl
    order := i.order
    down := i.down
    chain := i.chain
    snaps := i.snaps
    acked := i.acked
    unfin := i.unfin
    fin := i.fin
    frames := by
      intro m hm
      rcases List.mem_append.1 hm with hm | hm
      · exact i.frames m hm
      · rw [List.mem_singleton.1 hm]; exact hf
    start := fun hc => by show s.tx.q ++ [f] = s.offered ++ [f]; rw [i.start hc] }⟩

theorem LinkInv.upLost {s : UlLink} {h : UlNotes} {ns : List Nat} {sn : List UlNet} (i : LinkInv s h ns sn) :
    ∃ s', s.step .upLost = .ok s' ∧ LinkInv s' h (ns.drop 1) sn :=
  ⟨_, rfl, {
    win := i.win
    sent := i.sent
    blks := i.blks
    net := i.net
    got := i.got
    up := (List.forall₂_drop 1 i.up).imp fun _ _ u => u.mono (fun _ _ y => y) rfl
    order := i.order.sublist (List.drop_sublist _ _)
    down := i.down
    chain := i.chain
    snaps := i.snaps
    acked := i.acked
    unfin := i.unfin
    fin := i.fin
    frames := i.frames
    start := i.start }⟩

theorem LinkInv.downLost {s : UlLink} {h : UlNotes} {ns : List Nat} {sn : List UlNet} (i : LinkInv s h ns sn) :
    ∃ s', s.step .downLost = .ok s' ∧ LinkInv s' h ns (sn.drop 1) :=
  ⟨_, rfl, {
    win := i.win
    sent := i.sent
    blks := i.blks
    net := i.net
    got := i.got
    up := i.up.imp fun _ _ u => u.mono (fun _ _ y => y) rfl
    order := i.order
    down := List.forall₂_drop 1 i.down
    chain := i.chain.sublist (List.drop_sublist _ _)
    snaps := fun t ht => i.snaps t (List.mem_of_mem_drop ht)
    acked := i.acked
    unfin := i.unfin
    fin := i.fin
    frames := i.frames
    start := i.start }⟩

theorem LinkInv.report {s : UlLink} {h : UlNotes} {ns : List Nat} {sn : List UlNet} (i : LinkInv s h ns sn)
    (d : UlAckDesc) (hd : s.net.Truthful d) : ∃ s', s.step (.report d) = .ok s' ∧ LinkInv s' h ns (sn ++ [s.net]) :=
  ⟨_, rfl, {
    win := i.win
    sent := i.sent
    blks := i.blks
    net := i.net
    got := i.got
    up := i.up.imp fun _ _ u => u.mono (fun _ _ y => y) rfl
    order := i.order
    down := List.rel_append i.down (.cons hd .nil)
    chain := List.pairwise_append.2 ⟨i.chain, List.pairwise_singleton _ _, fun a ha b hb => by
      rw [List.mem_singleton.1 hb]; exact (i.snaps a ha).2.1⟩
    snaps := by
      intro t ht
      rcases List.mem_append.1 ht with ht | ht
      · exact i.snaps t ht
      · rw [List.mem_singleton.1 ht]; exact ⟨i.net, fun _ _ x => x, i.acked⟩
    acked := i.acked
    unfin := i.unfin
    fin := i.fin
    frames := i.frames
    start := i.start }⟩

theorem LinkInv.upArrives {s : UlLink} {h : UlNotes} {ns : List Nat} {sn : List UlNet} (i : LinkInv s h ns sn) :
    ∃ s', s.step .upArrives = .ok s' ∧ LinkInv s' h (ns.drop 1) sn ∧ Has s'.net s.net ∧
      (∀ n, ns.head? = some n → (s'.net.got n).isSome) ∧ s'.tx = s.tx ∧ s'.up = s.up.drop 1 ∧ s'.down = s.down ∧
      s'.composed = s.composed ∧ s'.offered = s.offered ∧ s'.done = s.done := by
  have iup := i.up
  have iord := i.order
  generalize hu : s.up = u at iup
  cases iup with
  | nil =>
    exact ⟨s, by simp [UlLink.step, hu], by simpa using i, fun _ _ x => x, by simp, rfl, by simp [hu], rfl, rfl, rfl, rfl⟩
  | @cons x n up ns' hx hr =>
    obtain ⟨bsn, b⟩ := x
    have hb : bsn = n % 128 := hx.bsn
    have hq := vq_spec s.net i.net
    have hlo := hx.lo
    obtain ⟨t1, t2, t3, t4, t5⟩ := take_spec i.net (n := n) (b := b) hx.hi (by omega)
    subst hb
    refine ⟨{ s with up := up, net := s.net.take (n % 128) b }, by simp only [UlLink.step, hu], ?_, t2, ?_, rfl, by simp, rfl, rfl, rfl, rfl⟩
    · exact {
        win := i.win
        sent := i.sent
        blks := i.blks
        net := t1
        got := by
          intro m c hc
          rcases t3 m c hc with h1 | ⟨rfl, rfl⟩
          · exact i.got m c h1
          · exact hx.blk
        up := by
          have hord := List.pairwise_cons.1 iord
          have hmem : ∀ {u : List (Nat × UlBlock)} {l : List Nat}, List.Forall₂ (Under s) u l →
              (∀ a ∈ l, n < a + 64) → List.Forall₂ (Under { s with up := up, net := s.net.take (n % 128) b }) u l := by
            intro u l hl
            induction hl with
            | nil => intro _; exact .nil
            | @cons y m u l hy _ ih =>
              intro ha
              refine .cons ⟨hy.bsn, hy.blk, ?_, ?_⟩ (ih fun a h => ha a (List.mem_cons_of_mem _ h))
              · show (s.net.take (n % 128) b).vr ≤ m + 64
                have := ha m List.mem_cons_self
                have := hy.lo
                omega
              · show m < (s.net.take (n % 128) b).vq + 64
                have := t2.vq t1 i.net
                have := hy.hi
                omega
          exact hmem hr hord.1
        order := (List.pairwise_cons.1 iord).2
        down := i.down
        chain := i.chain
        snaps := fun t ht => ⟨(i.snaps t ht).1, t2.trans (i.snaps t ht).2.1, (i.snaps t ht).2.2⟩
        acked := fun m hm => t2.isSome (i.acked m hm)
        unfin := i.unfin
        fin := i.fin
        frames := i.frames
        start := i.start }
    · intro m hm
      simp only [List.head?_cons, Option.some.injEq] at hm
      subst hm
      exact t5

/-- When the network has a block with countdown value 0 and all before it, it has everything. -/
theorem LinkInv.complete {s : UlLink} {h : UlNotes} {ns : List Nat} {sn : List UlNet} (i : LinkInv s h ns sn)
    {t : UlNet} (ht : Has s.net t) (hc : t.Complete) :
    s.tx.finished = true ∧ ∀ n, n < s.composed.length → (s.net.got n).isSome := by
  obtain ⟨n, b, h1, h2, h3⟩ := hc
  have hb := i.got n b (ht n b h1)
  have hmem : b ∈ s.composed := List.mem_of_getElem? hb
  have hf : s.tx.finished = true := by
    cases hf : s.tx.finished with
    | true => rfl
    | false => exact absurd h2 (i.unfin hf b hmem)
  refine ⟨hf, ?_⟩
  obtain ⟨l, c, e1, e2, e3⟩ := i.fin hf
  have hn : n = l.length := by
    rw [e1] at hb
    have hlt := (List.getElem?_eq_some_iff.1 hb).1
    simp only [List.length_append, List.length_cons, List.length_nil] at hlt
    by_cases he : n < l.length
    · rw [List.getElem?_append_left he] at hb
      exact absurd h2 (e3 b (List.mem_of_getElem? hb))
    · omega
  intro m hm
  rw [e1] at hm
  simp only [List.length_append, List.length_cons, List.length_nil] at hm
  by_cases he : m = n
  · subst he; rw [ht _ _ h1]; rfl
  · exact ht.isSome (h3 m (by omega))

/-- What the mobile station notes of a report it receives. -/
theorem LinkInv.reported {s : UlLink} {h : UlNotes} {ns : List Nat} {sn : List UlNet} (i : LinkInv s h ns sn)
    {t : UlNet} {d : UlAckDesc} (ht : NetOk t) (hs : Has s.net t) (ha : ∀ n, h.news n = .acked → (t.got n).isSome)
    (hd : t.Truthful d) (n : Nat) :
    h.reported d n = if h.base ≤ n ∧ n < t.vr then some (t.got n).isSome else none := by
  have hb := base_spec h
  have hle := i.win.le
  have hvr := i.vr_le ht hs
  have hbv : h.base ≤ t.vr := by
    have := le_vq ht (k := h.base) fun m hm => ha m (hb.2.1 m hm)
    have := (vq_spec t ht).2.2
    omega
  have hS : h.base + (d.ssn + 128 - h.base % 128) % 128 = t.vr := by
    rw [hd.ssn]; omega
  unfold UlNotes.reported
  simp only [hS]
  by_cases hc : h.base ≤ n ∧ n < t.vr
  · rw [if_pos hc, if_pos ⟨by omega, hc.1, hc.2, by omega⟩]
    rw [hd.bits (t.vr - n) (by omega) (by omega) (by omega)]
    congr 3
    omega
  · rw [if_neg hc, if_neg (fun hx => hc ⟨hx.2.1, hx.2.2.1⟩)]

theorem LinkInv.downArrives {s : UlLink} {h : UlNotes} {ns : List Nat} {sn : List UlNet} (i : LinkInv s h ns sn)
    (hdone : s.done = false) :
    ∃ s', s.step .downArrives = .ok s' ∧ s'.net = s.net ∧ s'.composed = s.composed ∧ s'.offered = s.offered ∧
      s'.tx.q = s.tx.q ∧ s'.tx.finished = s.tx.finished ∧ s'.up = s.up ∧ s'.down = s.down.drop 1 ∧
      (s'.done = false → ∃ h', LinkInv s' h' ns (sn.drop 1) ∧ h'.sent = h.sent ∧
        (∀ d, s.down.head? = some d → d.finalAck = false) ∧
        ∀ t, sn.head? = some t → ∀ n, h'.news n = .acked ↔
          (h.news n = .acked ∨ (h.base ≤ n ∧ n < t.vr ∧ (t.got n).isSome))) ∧
      (s'.done = true → s.tx.finished = true ∧ (∀ n, n < s.composed.length → (s.net.got n).isSome)) := by
  have idown := i.down
  generalize hu : s.down = u at idown
  cases idown with
  | nil =>
    refine ⟨s, by simp [UlLink.step, hu], rfl, rfl, rfl, rfl, rfl, rfl, by simp [hu], fun _ => ⟨h, by simpa using i, rfl, by simp, by simp⟩,
      fun hx => ?_⟩
    rw [hdone] at hx; cases hx
  | @cons d t down sn' hx hr =>
    obtain ⟨s1, s2, s3⟩ := i.snaps t List.mem_cons_self
    refine ⟨{ s with down := down, tx := (s.tx.ackNack d).1, done := s.done || (s.tx.ackNack d).2 },
      by simp only [UlLink.step, hu], rfl, rfl, rfl, rfl, rfl, rfl, by simp, ?_, ?_⟩
    · intro hnd
      have hff : d.finalAck = false := by
        cases hff : d.finalAck with
        | false => rfl
        | true =>
          have := (i.complete s2 (hx.final hff)).1
          simp [UlTx.ackNack, this, hff, hdone] at hnd
      have hrep := i.reported s1 s2 s3 hx
      have hnews : ∀ n, (h.note (.ackNack d) none).news n = .acked ↔
          (h.news n = .acked ∨ (h.base ≤ n ∧ n < t.vr ∧ (t.got n).isSome)) := by
        intro n
        simp only [UlNotes.note, hff, Bool.false_eq_true, if_false, hrep n]
        by_cases hc : h.base ≤ n ∧ n < t.vr
        · simp only [hc, and_self, if_true, true_and]
          cases hg : (t.got n).isSome with
          | true => simp
          | false =>
            simp only [Bool.false_eq_true, or_false, reduceCtorEq, false_iff]
            intro ha
            have := s3 n ha
            rw [hg] at this; cases this
        · rw [if_neg hc]
          simp only
          constructor
          · exact Or.inl
          · rintro (h1 | h1)
            · exact h1
            · exact absurd ⟨h1.1, h1.2.1⟩ hc
      have hacked : ∀ n, (h.note (.ackNack d) none).news n = .acked → (t.got n).isSome := by
        intro n hn
        rcases (hnews n).1 hn with h1 | h1
        · exact s3 n h1
        · exact h1.2.2
      have hsent : (h.note (.ackNack d) none).sent = h.sent := by simp [UlNotes.note, hff]
      refine ⟨h.note (.ackNack d) none, ?_, hsent, by simp [hff], ?_⟩
      · exact {
          win := i.win.ackNack d (by rw [hx.ssn]; omega) none
          sent := by rw [hsent]; exact i.sent
          blks := by rw [hsent]; exact i.blks
          net := i.net
          got := i.got
          up := i.up.imp fun _ _ u => u.mono (fun _ _ y => y) rfl
          order := i.order
          down := hr
          chain := (List.pairwise_cons.1 i.chain).2
          snaps := fun v hv => ⟨(i.snaps v (List.mem_cons_of_mem _ hv)).1, (i.snaps v (List.mem_cons_of_mem _ hv)).2.1,
            fun n hn => ((List.pairwise_cons.1 i.chain).1 v hv).isSome (hacked n hn)⟩
          acked := fun n hn => s2.isSome (hacked n hn)
          unfin := i.unfin
          fin := i.fin
          frames := i.frames
          start := i.start }
      · intro t' ht'
        simp only [List.head?_cons, Option.some.injEq] at ht'
        subst ht'
        exact hnews
    · intro hd
      simp only [hdone, Bool.false_or, UlTx.ackNack, Bool.and_eq_true] at hd
      exact i.complete s2 (hx.final hd.2)

end Verif.Rlc
