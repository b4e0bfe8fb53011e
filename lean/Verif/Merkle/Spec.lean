import Verif.Merkle.Model

/-!
Specification of the ternary Merkle accumulator, independent of keys, caches and stores: an abstract
history is a list of leaves; the node at height `d` (leaves have height 0), position `i` is the hash of its
three children, absent children counting as zero.
-/

namespace Verif.Merkle

/-- the abstract tree: value of node `i` at height `d`, `none` if no leaf below it has been added -/
def node {F : Type} [Zero F] (H : F → F → F → F) (leaves : List F) : Nat → Nat → Option F
  | 0, i => leaves[i]?
  | d + 1, i =>
    match node H leaves d (3 * i), node H leaves d (3 * i + 1), node H leaves d (3 * i + 2) with
    | none, none, none => none
    | x, y, z => some (H (x.getD 0) (y.getD 0) (z.getD 0))

/-- root of the abstract tree of depth `d`: zero for the empty tree -/
def specRoot {F : Type} [Zero F] (H : F → F → F → F) (d : Nat) (leaves : List F) : F :=
  (node H leaves d 0).getD 0

/-- what a client can do with a tree: `reopen` drops the handle and opens the tree again on the same
state, `crash` loses the uncommitted session first, `failCommit` is a commit refused by the database
(session discarded) after which the client re-opens the tree. -/
inductive Op (F : Type) where
  | add (h : F)
  | commit
  | reopen
  | crash
  | failCommit

/-- abstract state: the leaves in the tree, and the leaves of each committed version (latest first;
version `n` is the one with `n` older versions) -/
structure Spec (F : Type) where
  cur : List F
  versions : List (List F)

/-- leaves at the last commit -/
def Spec.committed {F : Type} (s : Spec F) : List F := s.versions.headD []

/-- abstract effect of an operation -/
def Spec.step {F : Type} (s : Spec F) : Op F → Spec F
  | .add h => { s with cur := s.cur ++ [h] }
  | .commit => { s with versions := s.cur :: s.versions }
  | .reopen => s
  | .crash => { s with cur := s.committed }
  | .failCommit => { s with cur := s.committed }

/-- opening a tree on an empty store commits version 0 -/
def Spec.init {F : Type} : Spec F := { cur := [], versions := [[]] }

/-- abstract effect of a history -/
def Spec.run {F : Type} (ops : List (Op F)) : Spec F := ops.foldl Spec.step Spec.init

/-- the history never puts more than `3^20` leaves in the tree: number of additions, a simple
sufficient bound -/
def adds {F : Type} (ops : List (Op F)) : Nat :=
  (ops.filter (fun o => match o with | .add _ => true | _ => false)).length

section
variable {F : Type} [Zero F] (c : Codec F) (H : F → F → F → F)

/-- the effect of a client operation on the modelled tree, `none` if some call returns `Err` -/
def Tree.step (t : Tree) : Op F → Option Tree
  | .add h => (t.add c H h).map Prod.fst
  | .commit => match t.commit true with
    | (t', some _) => some t'
    | _ => none
  | .reopen => (Tree.new c t.store).2
  | .crash => (Tree.new c t.store.discard).2
  | .failCommit => (Tree.new c (t.commit false).1.store).2

/-- running a history from tree `t` -/
def Tree.runFrom : Tree → List (Op F) → Option Tree
  | t, [] => some t
  | t, o :: ops => (t.step c H o).bind fun t' => Tree.runFrom t' ops

/-- running a history on a tree opened on an empty store -/
def runTree (ops : List (Op F)) : Option Tree :=
  (Tree.new c Store.empty).2.bind fun t => Tree.runFrom c H t ops

end

end Verif.Merkle
