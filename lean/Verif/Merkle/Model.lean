import Verif.Bytes

/-!
Model of `accumulators/src/merkle_tree.rs`: the persistent ternary Merkle tree.

* `F` stands for `BLSScalar`, `H a b c` for `RescueInstance::rescue(&[a, b, c, 0])[0]`.
* `Codec` stands for `BLSScalar::zei_to_bytes` / `zei_from_bytes`.
* `Store` stands for the `storage` crate's `PrefixedStore` (not part of the repository): a session
  overlay of pending writes on top of committed, versioned snapshots.  Database I/O errors are not
  modelled; the `good2_commit` verdict is an explicit Boolean input of `commit`.
* `Result` is `Option` (`none` = `Err`).
-/

namespace Verif.Merkle

/-- models accumulators/src/merkle_tree.rs:16 -/
def TREE_DEPTH : Nat := 20

/-- models accumulators/src/merkle_tree.rs:19 -/
def LEAF_START : Nat := 1743392200

/-- models accumulators/src/merkle_tree.rs:21 -/
def KEY_PAD : Bytes := [0, 0, 0, 0]

/-- models accumulators/src/merkle_tree.rs:22 -/
def ROOT_KEY : Bytes := [0, 0, 0, 0, 0, 0, 0, 0, 0, 0, 0, 0]

/-- models accumulators/src/merkle_tree.rs:23 -/
def ENTRY_COUNT_KEY : Bytes := [0, 0, 0, 1]

/-- `KEY_PAD.to_vec(); store_key.extend(key.to_be_bytes())`,
models accumulators/src/merkle_tree.rs:103-104 (and 135-136, 163-164, 180-185, 214-215, 257-258) -/
def storeKey (key : Nat) : Bytes := KEY_PAD ++ beBytes 8 key

/-- models accumulators/src/merkle_tree.rs:453-461 -/
inductive TreePath where
  | left | middle | right
  deriving DecidableEq, Repr

/-- one iteration of the loop, models accumulators/src/merkle_tree.rs:489-504 -/
def pathStep (key : Nat) : (Nat × TreePath) × Nat :=
  if key % 3 = 1 then ((key, .left), key / 3)
  else if key % 3 = 2 then ((key, .middle), key / 3)
  else ((key, .right), if key ≠ 0 then key / 3 - 1 else 0)

/-- the loop of `get_path_keys` run for `n` iterations, models accumulators/src/merkle_tree.rs:488-505 -/
def pathKeysFrom : Nat → Nat → List (Nat × TreePath)
  | 0, _ => []
  | n + 1, key => (pathStep key).1 :: pathKeysFrom n (pathStep key).2

/-- models accumulators/src/merkle_tree.rs:484-507 (21 iterations, `0..=TREE_DEPTH`) -/
def getPathKeys (uid : Nat) : List (Nat × TreePath) :=
  pathKeysFrom (TREE_DEPTH + 1) (LEAF_START + uid)

/-- scalar serialisation, models algebra `zei_to_bytes` / `zei_from_bytes` of `BLSScalar` -/
structure Codec (F : Type) where
  enc : F → Bytes
  dec : Bytes → Option F
  dec_enc : ∀ x, dec (enc x) = some x

/-- a map from keys to values -/
abbrev Snapshot := Bytes → Option Bytes

/-- models the `PrefixedStore` of the `storage` crate: `session` holds the writes since the last
commit, `hist v` is the content as of version `v`, `height` the last committed version. -/
structure Store where
  session : Snapshot
  hist : Nat → Snapshot
  height : Nat

/-- `store.get` -/
def Store.get (s : Store) (k : Bytes) : Option Bytes :=
  match s.session k with
  | some v => some v
  | none => s.hist s.height k

/-- `store.set` -/
def Store.set (s : Store) (k : Bytes) (v : Bytes) : Store :=
  { s with session := fun k' => if k' = k then some v else s.session k' }

/-- `store.exists` -/
def Store.exists (s : Store) (k : Bytes) : Bool := (s.get k).isSome

/-- `store.get_v`: the content as of a version -/
def Store.getV (s : Store) (k : Bytes) (v : Nat) : Option Bytes :=
  if v ≤ s.height then s.hist v k else none

/-- `state.discard_session()` -/
def Store.discard (s : Store) : Store := { s with session := fun _ => none }

/-- `state.commit(h)`: the pending writes become version `h` -/
def Store.commit (s : Store) (h : Nat) : Store :=
  { session := fun _ => none
    hist := fun v => if v = h then s.get else s.hist v
    height := h }

/-- a store nobody has written to -/
def Store.empty : Store := { session := fun _ => none, hist := fun _ _ => none, height := 0 }

/-- models accumulators/src/merkle_tree.rs:463-482 (`HashMap<u64, Vec<u8>>`); iteration order is the
order of insertion, which is one of the orders the hash map may use; keys are unique. -/
abbrev Cache := List (Nat × Bytes)

/-- models accumulators/src/merkle_tree.rs:473-475 -/
def Cache.set (c : Cache) (k : Nat) (v : Bytes) : Cache := c.filter (fun e => e.1 ≠ k) ++ [(k, v)]

/-- models accumulators/src/merkle_tree.rs:476-478 -/
def Cache.get (c : Cache) (k : Nat) : Option Bytes := c.lookup k

/-- models accumulators/src/merkle_tree.rs:55-58 -/
structure Tree where
  entryCount : Nat
  store : Store

/-- models accumulators/src/merkle_tree.rs:440-450 -/
structure ProofNode (F : Type) where
  siblings1 : F
  siblings2 : F
  path : TreePath

/-- models accumulators/src/merkle_tree.rs:427-438 -/
structure Proof (F : Type) where
  nodes : List (ProofNode F)
  root : F
  rootVersion : Nat
  uid : Nat

section
variable {F : Type} [Zero F] (c : Codec F) (H : F → F → F → F)

/-- models accumulators/src/merkle_tree.rs:62-84; `ok` is the verdict of `good2_commit`.  The first
component is the store left behind, the second the tree (`none` = `Err`).  A stored counter shorter
than eight bytes (index panic at line 67) is `none` too. -/
def Tree.new (s : Store) (ok : Bool := true) : Store × Option Tree :=
  match s.get ENTRY_COUNT_KEY with
  | some bytes =>
    if 8 ≤ bytes.length then (s, some { entryCount := ofBE (bytes.take 8), store := s })
    else (s, none)
  | none =>
    let s := s.set ROOT_KEY (c.enc 0)
    let s := s.set ENTRY_COUNT_KEY (beBytes 8 0)
    if ok then
      let s := s.commit 0
      (s, some { entryCount := 0, store := s })
    else (s.discard, none)

/-- closure `parse_hash`, models accumulators/src/merkle_tree.rs:99-109 -/
def parseHash (cache : Cache) (s : Store) (key : Nat) : Option F :=
  match cache.get key with
  | some b => c.dec b
  | none =>
    match s.get (storeKey key) with
    | some b => c.dec b
    | none => some 0

/-- models accumulators/src/merkle_tree.rs:111-127 -/
def sibTriple (cache : Cache) (s : Store) (e : Nat × TreePath) : Option (F × F × F) :=
  match e.2 with
  | .left => do
    let a ← parseHash c cache s e.1
    let b ← parseHash c cache s (e.1 + 1)
    let d ← parseHash c cache s (e.1 + 2)
    pure (a, b, d)
  | .middle => do
    let a ← parseHash c cache s (e.1 - 1)
    let b ← parseHash c cache s e.1
    let d ← parseHash c cache s (e.1 + 1)
    pure (a, b, d)
  | .right => do
    let a ← parseHash c cache s (e.1 - 2)
    let b ← parseHash c cache s (e.1 - 1)
    let d ← parseHash c cache s e.1
    pure (a, b, d)

/-- the loop over `keys[0..TREE_DEPTH]`, models accumulators/src/merkle_tree.rs:98-132; the entry
following the current one is `keys[index + 1]`. -/
def updateLoop (s : Store) : List (Nat × TreePath) → Cache → Option Cache
  | e :: e' :: rest, cache => do
    let (a, b, d) ← sibTriple c cache s e
    updateLoop s (e' :: rest) (cache.set e'.1 (c.enc (H a b d)))
  | _, cache => some cache

/-- models accumulators/src/merkle_tree.rs:134-138 -/
def flush (s : Store) (cache : Cache) : Store :=
  cache.foldl (fun s e => s.set (storeKey e.1) e.2) s

/-- models accumulators/src/merkle_tree.rs:87-144 -/
def Tree.add (t : Tree) (hash : F) : Option (Tree × Nat) :=
  let keys := getPathKeys t.entryCount
  match keys with
  | [] => none
  | leaf :: _ =>
    let uid := t.entryCount
    let cache : Cache := Cache.set [] leaf.1 (c.enc hash)
    match updateLoop c H t.store keys cache with
    | none => none
    | some cache =>
      let s := flush t.store cache
      let n := t.entryCount + 1
      some ({ entryCount := n, store := s.set ENTRY_COUNT_KEY (beBytes 8 n) }, uid)

/-- `store.height()`, models accumulators/src/merkle_tree.rs:267-269 -/
def Tree.version (t : Tree) : Nat := t.store.height

/-- models accumulators/src/merkle_tree.rs:210-213 -/
def rootPos (depth : Nat) : Nat := ((List.range (TREE_DEPTH - depth)).map (fun i => 3 ^ i)).sum

/-- models accumulators/src/merkle_tree.rs:209-221; a depth above `TREE_DEPTH` underflows
(panic in a checked build) and is `none`. -/
def Tree.getRootWithDepth (t : Tree) (depth : Nat) : Option F :=
  if TREE_DEPTH < depth then none
  else
    match t.store.get (storeKey (rootPos depth)) with
    | some b => c.dec b
    | none => none

/-- models accumulators/src/merkle_tree.rs:204-206 -/
def Tree.getRoot (t : Tree) : Option F := t.getRootWithDepth c TREE_DEPTH

/-- models accumulators/src/merkle_tree.rs:224-239 -/
def Tree.getRootWithDepthAndVersion (t : Tree) (depth version : Nat) : Option F :=
  if version = 0 then some 0
  else if TREE_DEPTH < depth then none
  else
    match t.store.getV (storeKey (rootPos depth)) version with
    | some b => c.dec b
    | none => none

/-- reading a sibling, default zero, models accumulators/src/merkle_tree.rs:180-189 -/
def sibling (get : Bytes → Option Bytes) (key : Nat) : Option F :=
  match get (storeKey key) with
  | some b => c.dec b
  | none => some 0

/-- models accumulators/src/merkle_tree.rs:175-179 -/
def siblingKeys (e : Nat × TreePath) : Nat × Nat :=
  match e.2 with
  | .left => (e.1 + 1, e.1 + 2)
  | .middle => (e.1 - 1, e.1 + 1)
  | .right => (e.1 - 2, e.1 - 1)

/-- the closure building one proof node, models accumulators/src/merkle_tree.rs:161-192; `get` is
`store.get` here and `store.get_v(_, v)` in the immutable tree (lines 317-348). -/
def proofNode (s : Store) (get : Bytes → Option Bytes) (e : Nat × TreePath) :
    Option (ProofNode F) :=
  if s.exists (storeKey e.1) then do
    let a ← sibling c get (siblingKeys e).1
    let b ← sibling c get (siblingKeys e).2
    pure { siblings1 := a, siblings2 := b, path := e.2 }
  else none

/-- models accumulators/src/merkle_tree.rs:152-201 -/
def Tree.generateProofWithDepth (t : Tree) (id depth : Nat) : Option (Proof F) :=
  if TREE_DEPTH < depth ∨ 3 ^ depth < id then none
  else do
    let nodes ← ((getPathKeys id).take depth).mapM (proofNode c t.store t.store.get)
    let root ← t.getRootWithDepth c depth
    pure { nodes := nodes, root := root, rootVersion := t.version, uid := id }

/-- models accumulators/src/merkle_tree.rs:147-149 -/
def Tree.generateProof (t : Tree) (id : Nat) : Option (Proof F) :=
  t.generateProofWithDepth c id TREE_DEPTH

/-- models accumulators/src/merkle_tree.rs:242-253; `ok` is the verdict of `good2_commit`.  The tree
value is returned in both cases because `&mut self` is modified in both. -/
def Tree.commit (t : Tree) (ok : Bool) : Tree × Option Nat :=
  let height := t.store.height
  if ok then ({ t with store := t.store.commit (height + 1) }, some (height + 1))
  else ({ t with store := t.store.discard }, none)

/-- models accumulators/src/merkle_tree.rs:256-264 (`none` = `Err`) -/
def Tree.getLeaf (t : Tree) (uid : Nat) : Option (Option F) :=
  match t.store.get (storeKey uid) with
  | some b => (c.dec b).map some
  | none => some none

/-- models accumulators/src/merkle_tree.rs:279-298: a read-only view; `new` never writes. -/
def Immutable.new (s : Store) : Option Tree :=
  match s.get ENTRY_COUNT_KEY with
  | some bytes =>
    if 8 ≤ bytes.length then some { entryCount := ofBE (bytes.take 8), store := s } else none
  | none => some { entryCount := 0, store := s }

/-- models accumulators/src/merkle_tree.rs:365-368 -/
def Immutable.getRootWithDepth (t : Tree) (depth : Nat) : Option F :=
  t.getRootWithDepthAndVersion c depth t.version

/-- models accumulators/src/merkle_tree.rs:307-357: note `keys[0..TREE_DEPTH]` whatever `depth` is,
`exists` on the current store and siblings as of the current version. -/
def Immutable.generateProofWithDepth (t : Tree) (id depth : Nat) : Option (Proof F) :=
  if TREE_DEPTH < depth ∨ 3 ^ depth < id then none
  else do
    let nodes ← ((getPathKeys id).take TREE_DEPTH).mapM
      (proofNode c t.store (fun k => t.store.getV k t.version))
    let root ← Immutable.getRootWithDepth c t depth
    pure { nodes := nodes, root := root, rootVersion := t.version, uid := id }

/-- models accumulators/src/merkle_tree.rs:389-398 -/
def Immutable.getLeaf (t : Tree) (uid : Nat) : Option (Option F) :=
  match t.store.getV (storeKey uid) t.version with
  | some b => (c.dec b).map some
  | none => some none

/-- one level of `verify`, models accumulators/src/merkle_tree.rs:416-422 -/
def verifyStep (next : F) (node : ProofNode F) : F :=
  match node.path with
  | .left => H next node.siblings1 node.siblings2
  | .middle => H node.siblings1 next node.siblings2
  | .right => H node.siblings1 node.siblings2 next

/-- models accumulators/src/merkle_tree.rs:412-425 -/
def verify [DecidableEq F] (leaf : F) (proof : Proof F) : Bool :=
  decide (proof.nodes.foldl (verifyStep H) leaf = proof.root)

end

end Verif.Merkle
