import Verif.Rlc.FrameNumber

/-!
# Reserved polls

Model of /repo/src/rlcmac/pdch_ul_controller.c, of one timeslot.  The red-black tree of libosmocore is modelled as
any binary tree: an insertion puts a leaf where the code says and may then restructure the tree in any way that keeps
the order of its elements, a deletion may restructure it likewise.  `gsm0502_fncmp` is a libosmocore function, modelled
after its source: cyclic comparison with half a hyperframe as threshold.
-/
namespace Verif.Rlc

/-- `enum gprs_rlcmac_pdch_ulc_poll_reason`, /repo/include/osmocom/gprs/rlcmac/pdch_ul_controller.h:34-40. -/
inductive PollReason where
  | ulAss | dlAss | ulAck | dlAck | cellChgContinue
  deriving DecidableEq, Repr

/-- The `tbf`, `gre` pointer of a node. -/
inductive PollOwner where
  | tbf (n : Nat)
  | gre (n : Nat)
  deriving DecidableEq, Repr

/-- `struct gprs_rlcmac_pdch_ulc_node`, /repo/include/osmocom/gprs/rlcmac/pdch_ul_controller.h:43-52. -/
structure PollNode where
  fn : Nat
  reason : PollReason
  owner : PollOwner
  deriving DecidableEq, Repr

/-- A binary tree. -/
inductive PollTree where
  | leaf
  | node (l : PollTree) (x : PollNode) (r : PollTree)

/-- The elements from left to right: the order of `rb_first` and `rb_next`. -/
def PollTree.toList : PollTree → List PollNode
  | .leaf => []
  | .node l x r => l.toList ++ x :: r.toList

/-- `gsm0502_fncmp` of libosmocore: negative (before), zero, positive (after). -/
def fncmp (a b : Nat) : Int :=
  let thresh := hyperframe / 2
  if (a < b ∧ b - a < thresh) ∨ (a > b ∧ a - b > thresh) then -1
  else if (a > b ∧ a - b < thresh) ∨ (a < b ∧ b - a > thresh) then 1
  else 0

/-- `gprs_rlcmac_pdch_ulc_get_node`, /repo/src/rlcmac/pdch_ul_controller.c:56-74. -/
def PollTree.getNode (fn : Nat) : PollTree → Option PollNode
  | .leaf => none
  | .node l it r =>
    if fncmp it.fn fn > 0 then l.getNode fn
    else if fncmp it.fn fn < 0 then r.getNode fn
    else some it

/-- `gprs_rlcmac_pdch_ulc_add_node`, /repo/src/rlcmac/pdch_ul_controller.c:97-124, before `rb_insert_color`; `none`
is `-EEXIST`. -/
def PollTree.addNode (item : PollNode) : PollTree → Option PollTree
  | .leaf => some (.node .leaf item .leaf)
  | .node l it r =>
    if fncmp item.fn it.fn < 0 then (l.addNode item).map fun l' => .node l' it r
    else if fncmp item.fn it.fn > 0 then (r.addNode item).map fun r' => .node l it r'
    else none

/-- One pass of the loop of `gprs_rlcmac_pdch_ulc_release_tbf`, /repo/src/rlcmac/pdch_ul_controller.c:161-176: the
first node of the TBF is removed, `none` if there is none. -/
def releasePass (o : PollOwner) : List PollNode → Option (List PollNode)
  | [] => none
  | x :: xs => if x.owner = o then some xs else (releasePass o xs).map (x :: ·)

/-- `gprs_rlcmac_pdch_ulc_release_tbf`, /repo/src/rlcmac/pdch_ul_controller.c:158-178 (as many passes as nodes are
enough). -/
def releaseLoop (o : PollOwner) : Nat → List PollNode → List PollNode
  | 0, xs => xs
  | n + 1, xs =>
    match releasePass o xs with
    | none => xs
    | some xs' => releaseLoop o n xs'

/-- The loop of `gprs_rlcmac_pdch_ulc_expire_fn`, /repo/src/rlcmac/pdch_ul_controller.c:180-204. -/
def expireLoop (fn : Nat) : List PollNode → List PollNode
  | [] => []
  | x :: xs => if fncmp x.fn fn > 0 then x :: xs else expireLoop fn xs

/-- What is done to the reservations of a timeslot. -/
inductive PollOp where
  /-- `gprs_rlcmac_pdch_ulc_reserve` -/
  | reserve (fn : Nat) (reason : PollReason) (owner : PollOwner)
  /-- the scheduler looks up its frame number, and releases the node found (sched.c:75-120) -/
  | poll (fn : Nat)
  /-- the scheduler expires its frame number (sched.c:321) -/
  | expire (fn : Nat)
  /-- a TBF is freed (tbf.c:36-41) -/
  | freeTbf (n : Nat)
  /-- an entity with these TBFs is freed: `gprs_rlcmac_entity_free`, /repo/src/rlcmac/gre.c:79-95 -/
  | freeEntity (g : Nat) (tbfs : List Nat)
  deriving DecidableEq, Repr

/-- What is seen of it: whether the reservation failed, which node was found. -/
inductive PollOut where
  | reserved | eexist
  | found (reason : PollReason) (owner : PollOwner)
  | nothing
  deriving DecidableEq, Repr

/-- One step; the trees on the right are any with the elements in question. -/
inductive PollStep : PollTree → PollOp → PollOut → PollTree → Prop where
  /-- /repo/src/rlcmac/pdch_ul_controller.c:126-137 -/
  | reserve {t t1 t' : PollTree} {fn : Nat} {r : PollReason} {o : PollOwner} :
      t.addNode ⟨fn, r, o⟩ = some t1 → t'.toList = t1.toList → PollStep t (.reserve fn r o) .reserved t'
  /-- /repo/src/rlcmac/pdch_ul_controller.c:115-119 -/
  | exists {t : PollTree} {fn : Nat} {r : PollReason} {o : PollOwner} :
      t.addNode ⟨fn, r, o⟩ = none → PollStep t (.reserve fn r o) .eexist t
  /-- /repo/src/rlcmac/sched.c:75-120, /repo/src/rlcmac/pdch_ul_controller.c:139-143 -/
  | poll {t t' : PollTree} {fn : Nat} {x : PollNode} :
      t.getNode fn = some x → t'.toList = t.toList.erase x → PollStep t (.poll fn) (.found x.reason x.owner) t'
  /-- /repo/src/rlcmac/sched.c:75-76 -/
  | noPoll {t : PollTree} {fn : Nat} : t.getNode fn = none → PollStep t (.poll fn) .nothing t
  /-- /repo/src/rlcmac/pdch_ul_controller.c:180-204 -/
  | expire {t t' : PollTree} {fn : Nat} :
      t'.toList = expireLoop fn t.toList → PollStep t (.expire fn) .nothing t'
  /-- /repo/src/rlcmac/tbf.c:36-41 -/
  | freeTbf {t t' : PollTree} {n : Nat} :
      t'.toList = releaseLoop (.tbf n) t.toList.length t.toList → PollStep t (.freeTbf n) .nothing t'
  /-- /repo/src/rlcmac/gre.c:79-95: only the reservations of its TBFs are released -/
  | freeEntity {t t' : PollTree} {g : Nat} {tbfs : List Nat} :
      t'.toList = tbfs.foldl (fun l n => releaseLoop (.tbf n) l.length l) t.toList →
      PollStep t (.freeEntity g tbfs) .nothing t'

/-- A history of operations with what is seen of each. -/
inductive PollRun : PollTree → List PollOp → List PollOut → PollTree → Prop where
  | nil {t : PollTree} : PollRun t [] [] t
  | cons {t t1 t' : PollTree} {op : PollOp} {out : PollOut} {ops : List PollOp} {outs : List PollOut} :
      PollStep t op out t1 → PollRun t1 ops outs t' → PollRun t (op :: ops) (out :: outs) t'

end Verif.Rlc
