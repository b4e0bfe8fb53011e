import Verif.Merkle.Spec
import Mathlib.Tactic.IntervalCases

namespace Verif.Merkle

/-! ### Keys -/

/-- first key of level `l` (the root is level 0) -/
def lvlStart : Nat → Nat
  | 0 => 0
  | l + 1 => 3 * lvlStart l + 1

theorem lvlStart_succ (l : Nat) : lvlStart (l + 1) = lvlStart l + 3 ^ l := by
  induction l with
  | zero => rfl
  | succ l ih => rw [lvlStart, ih, pow_succ]; simp only [lvlStart] at ih ⊢; omega

theorem leaf_start_eq : LEAF_START = lvlStart TREE_DEPTH := by decide

theorem lvlStart_mono {a b : Nat} (h : a ≤ b) : lvlStart a ≤ lvlStart b := by
  induction h with
  | refl => exact le_refl _
  | step _ ih => rw [Nat.succ_eq_add_one, lvlStart_succ]; exact le_trans ih (Nat.le_add_right _ _)

theorem key_lt_next {l i : Nat} (h : i < 3 ^ l) : lvlStart l + i < lvlStart (l + 1) := by
  rw [lvlStart_succ]; omega

theorem key_inj {l i l' i' : Nat} (h : i < 3 ^ l) (h' : i' < 3 ^ l')
    (e : lvlStart l + i = lvlStart l' + i') : l = l' ∧ i = i' := by
  have h1 := key_lt_next h
  have h2 := key_lt_next h'
  rcases Nat.lt_trichotomy l l' with hl | hl | hl
  · have := lvlStart_mono hl; simp only [Nat.succ_eq_add_one] at this; omega
  · subst hl; omega
  · have := lvlStart_mono hl; simp only [Nat.succ_eq_add_one] at this; omega

theorem key_lt_u64 {l i : Nat} (hl : l ≤ TREE_DEPTH) (h : i < 3 ^ l) :
    lvlStart l + i < 256 ^ 8 := by
  have h1 := key_lt_next h
  have h2 : lvlStart (l + 1) ≤ lvlStart (TREE_DEPTH + 1) := lvlStart_mono (by omega)
  have h3 : lvlStart (TREE_DEPTH + 1) < 256 ^ 8 := by decide
  omega

theorem storeKey_inj {a b : Nat} (ha : a < 256 ^ 8) (hb : b < 256 ^ 8)
    (h : storeKey a = storeKey b) : a = b := by
  unfold storeKey at h
  exact beBytes_inj ha hb (List.append_cancel_left h)

theorem storeKey_ne_count (a : Nat) : storeKey a ≠ ENTRY_COUNT_KEY := by
  intro h
  have := congrArg List.length h
  simp [storeKey, KEY_PAD, ENTRY_COUNT_KEY] at this

theorem storeKey_zero : storeKey 0 = ROOT_KEY := by decide

/-- which child of its parent the node at position `i` is -/
def side (i : Nat) : TreePath :=
  if i % 3 = 0 then .left else if i % 3 = 1 then .middle else .right

theorem pathStep_level (l i : Nat) :
    pathStep (lvlStart (l + 1) + i) = ((lvlStart (l + 1) + i, side i), lvlStart l + i / 3) := by
  unfold pathStep side
  simp only [lvlStart]
  have h3 : i % 3 = 0 ∨ i % 3 = 1 ∨ i % 3 = 2 := by omega
  rcases h3 with h | h | h
  · have h1 : (3 * lvlStart l + 1 + i) % 3 = 1 := by omega
    have h2 : (3 * lvlStart l + 1 + i) / 3 = lvlStart l + i / 3 := by omega
    simp [h, h1, h2]
  · have h1 : (3 * lvlStart l + 1 + i) % 3 = 2 := by omega
    have h2 : (3 * lvlStart l + 1 + i) / 3 = lvlStart l + i / 3 := by omega
    simp [h, h1, h2]
  · have h1 : (3 * lvlStart l + 1 + i) % 3 = 0 := by omega
    have h2 : (3 * lvlStart l + 1 + i) / 3 - 1 = lvlStart l + i / 3 := by omega
    simp [h, h1, h2]

theorem pathKeys_succ (n l i : Nat) :
    pathKeysFrom (n + 1) (lvlStart (l + 1) + i) =
      (lvlStart (l + 1) + i, side i) :: pathKeysFrom n (lvlStart l + i / 3) := by
  rw [pathKeysFrom, pathStep_level]

theorem pathKeys_zero (i : Nat) (h : i < 3 ^ 0) :
    pathKeysFrom 1 (lvlStart 0 + i) = [(0, .right)] := by
  have : i = 0 := by simpa using h
  subst this; rfl

theorem pathKeysFrom_length (n k : Nat) : (pathKeysFrom n k).length = n := by
  induction n generalizing k with
  | zero => rfl
  | succ n ih => simp [pathKeysFrom, ih]

/-! ### Store and cache -/

@[simp] theorem Store.get_set (s : Store) (k k' v : Bytes) :
    (s.set k v).get k' = if k' = k then some v else s.get k' := by
  unfold Store.get Store.set
  by_cases h : k' = k <;> simp [h]

theorem Cache.get_set (c : Cache) (k k' : Nat) (v : Bytes) :
    (c.set k v).get k' = if k' = k then some v else c.get k' := by
  unfold Cache.get Cache.set
  induction c with
  | nil =>
    by_cases h : k' = k
    · simp [h]
    · have : (k' == k) = false := by simpa using h
      simp [List.lookup, h, this]
  | cons e c ih =>
    obtain ⟨a, b⟩ := e
    by_cases ha : a = k
    · subst ha
      rw [List.filter_cons_of_neg (by simp)]
      rw [ih]
      by_cases h : k' = a
      · simp [h]
      · have : (k' == a) = false := by simpa using h
        simp [h, List.lookup, this]
    · rw [List.filter_cons_of_pos (by simpa using ha)]
      by_cases h : k' = a
      · subst h; simp [List.lookup, ha]
      · have : (k' == a) = false := by simpa using h
        simp only [List.cons_append, List.lookup, this]
        exact ih

theorem Cache.nodup_set (c : Cache) (k : Nat) (v : Bytes) (h : (c.map Prod.fst).Nodup) :
    ((c.set k v).map Prod.fst).Nodup := by
  unfold Cache.set
  rw [List.map_append, List.nodup_append]
  refine ⟨?_, by simp, ?_⟩
  · exact (List.filter_sublist.map _).nodup h
  · intro a ha b hb
    simp only [List.mem_map, List.mem_filter] at ha
    obtain ⟨e, ⟨_, he⟩, rfl⟩ := ha
    simp at hb
    subst hb
    simpa using he

theorem flush_get (cache : Cache) (s : Store) (k : Nat) (hk : k < 256 ^ 8)
    (hn : (cache.map Prod.fst).Nodup) (hlt : ∀ e ∈ cache, e.1 < 256 ^ 8) :
    (flush s cache).get (storeKey k) =
      match cache.get k with
      | some v => some v
      | none => s.get (storeKey k) := by
  induction cache generalizing s with
  | nil => rfl
  | cons e cache ih =>
    obtain ⟨a, b⟩ := e
    simp only [List.map_cons, List.nodup_cons] at hn
    have ih' := ih (s.set (storeKey a) b) hn.2 (fun e he => hlt e (List.mem_cons_of_mem _ he))
    have ha : a < 256 ^ 8 := hlt (a, b) (by simp)
    change (flush (s.set (storeKey a) b) cache).get (storeKey k) = _
    rw [ih']
    by_cases h : k = a
    · subst h
      have hnone : Cache.get cache k = none := by
        unfold Cache.get
        rw [List.lookup_eq_none_iff]
        intro p hp
        have : p.1 ≠ k := fun hpk => hn.1 (by rw [← hpk]; exact List.mem_map_of_mem hp)
        simpa using this.symm
      rw [hnone]
      simp [Cache.get, List.lookup]
    · have hne : storeKey k ≠ storeKey a := fun e => h (storeKey_inj hk ha e)
      have hb : (k == a) = false := by simpa using h
      have : Cache.get ((a, b) :: cache) k = Cache.get cache k := by
        simp [Cache.get, List.lookup, hb]
      rw [this]
      cases Cache.get cache k <;> simp [hne]

theorem flush_get_other (cache : Cache) (s : Store) (k : Bytes) (hk : ∀ a, k ≠ storeKey a) :
    (flush s cache).get k = s.get k := by
  induction cache generalizing s with
  | nil => rfl
  | cons e cache ih =>
    change (flush (s.set (storeKey e.1) e.2) cache).get k = _
    rw [ih]
    simp [hk]

theorem flush_hist (cache : Cache) (s : Store) :
    (flush s cache).hist = s.hist ∧ (flush s cache).height = s.height := by
  induction cache generalizing s with
  | nil => exact ⟨rfl, rfl⟩
  | cons e cache ih =>
    change (flush (s.set (storeKey e.1) e.2) cache).hist = _ ∧ _
    exact ih _

theorem flush_wf {F : Type} (c : Codec F) (cache : Cache) (s : Store)
    (hc : ∀ e ∈ cache, ∃ x, e.2 = c.enc x)
    (hs : ∀ k b, k ≠ ENTRY_COUNT_KEY → s.get k = some b → ∃ x, b = c.enc x) :
    ∀ k b, k ≠ ENTRY_COUNT_KEY → (flush s cache).get k = some b → ∃ x, b = c.enc x := by
  induction cache generalizing s with
  | nil => exact hs
  | cons e cache ih =>
    change ∀ k b, _ → (flush (s.set (storeKey e.1) e.2) cache).get k = some b → _
    apply ih
    · exact fun e he => hc e (List.mem_cons_of_mem _ he)
    · intro k b hk hb
      rw [Store.get_set] at hb
      split at hb
      · obtain ⟨x, hx⟩ := hc e (by simp)
        exact ⟨x, by rw [← hx]; exact (Option.some.inj hb).symm⟩
      · exact hs k b hk hb

/-! ### The abstract tree -/

section
variable {F : Type} [Zero F] (H : F → F → F → F)

theorem node_succ (leaves : List F) (d i : Nat) :
    node H leaves (d + 1) i =
      if node H leaves d (3 * i) = none ∧ node H leaves d (3 * i + 1) = none ∧
          node H leaves d (3 * i + 2) = none then none
      else some (H ((node H leaves d (3 * i)).getD 0) ((node H leaves d (3 * i + 1)).getD 0)
        ((node H leaves d (3 * i + 2)).getD 0)) := by
  rw [node]
  cases node H leaves d (3 * i) <;> cases node H leaves d (3 * i + 1) <;>
    cases node H leaves d (3 * i + 2) <;> simp

theorem node_isNone_iff (leaves : List F) (d i : Nat) :
    node H leaves d i = none ↔ leaves.length ≤ i * 3 ^ d := by
  induction d generalizing i with
  | zero => simp [node]
  | succ d ih =>
    rw [node_succ]
    have e : i * 3 ^ (d + 1) = 3 * i * 3 ^ d := by rw [pow_succ]; ring
    have h1 : 3 * i * 3 ^ d ≤ (3 * i + 1) * 3 ^ d := Nat.mul_le_mul_right _ (by omega)
    have h2 : 3 * i * 3 ^ d ≤ (3 * i + 2) * 3 ^ d := Nat.mul_le_mul_right _ (by omega)
    rw [e]
    constructor
    · intro h
      split at h
      · rename_i hc; exact (ih _).mp hc.1
      · cases h
    · intro h
      rw [if_pos]
      exact ⟨(ih _).mpr h, (ih _).mpr (le_trans h h1), (ih _).mpr (le_trans h h2)⟩

theorem node_append_ne (leaves : List F) (h : F) (d i : Nat) (hi : i ≠ leaves.length / 3 ^ d) :
    node H (leaves ++ [h]) d i = node H leaves d i := by
  induction d generalizing i with
  | zero =>
    simp only [pow_zero, Nat.div_one] at hi
    simp only [node]
    rcases Nat.lt_or_ge i leaves.length with hlt | hge
    · rw [List.getElem?_append_left hlt]
    · rw [List.getElem?_eq_none (by simp; omega), List.getElem?_eq_none hge]
  | succ d ih =>
    have key : leaves.length / 3 ^ (d + 1) = leaves.length / 3 ^ d / 3 := by
      rw [pow_succ, Nat.div_div_eq_div_mul]
    rw [key] at hi
    rw [node_succ, node_succ, ih (3 * i) (by omega), ih (3 * i + 1) (by omega),
      ih (3 * i + 2) (by omega)]

/-- along the path of the new leaf every node is present -/
theorem node_append_path (leaves : List F) (h : F) (d : Nat) :
    node H (leaves ++ [h]) d (leaves.length / 3 ^ d) ≠ none := by
  rw [Ne, node_isNone_iff]
  simp only [List.length_append, List.length_cons, List.length_nil]
  have := Nat.div_mul_le_self leaves.length (3 ^ d)
  omega

theorem node_append_path_succ (leaves : List F) (h : F) (d : Nat) :
    node H (leaves ++ [h]) (d + 1) (leaves.length / 3 ^ (d + 1)) =
      let q := leaves.length / 3 ^ (d + 1)
      some (H ((node H (leaves ++ [h]) d (3 * q)).getD 0)
        ((node H (leaves ++ [h]) d (3 * q + 1)).getD 0)
        ((node H (leaves ++ [h]) d (3 * q + 2)).getD 0)) := by
  have hp := node_append_path H leaves h (d + 1)
  rw [node_succ] at hp ⊢
  split at hp
  · exact absurd rfl hp
  · rename_i hc; rw [if_neg hc]

/-! ### Invariant -/

variable (c : Codec F)

/-- the store represents the abstract tree over `leaves` -/
structure Rep (get : Snapshot) (leaves : List F) : Prop where
  node_eq : ∀ l d i, l + d = TREE_DEPTH → i < 3 ^ l → (l ≠ 0 ∨ leaves ≠ []) →
    get (storeKey (lvlStart l + i)) = (node H leaves d i).map c.enc
  empty_root : leaves = [] → get (storeKey 0) = some (c.enc 0)
  count : get ENTRY_COUNT_KEY = some (beBytes 8 leaves.length)
  wf : ∀ k b, k ≠ ENTRY_COUNT_KEY → get k = some b → ∃ x, b = c.enc x

/-- state of the cache after the nodes of the new leaf's path at levels `≥ l` have been computed -/
def CacheInv (cache : Cache) (leaves : List F) (h : F) (l : Nat) : Prop :=
  (cache.map Prod.fst).Nodup ∧
  (∀ e ∈ cache, e.1 < 256 ^ 8 ∧ ∃ x, e.2 = c.enc x) ∧
  ∀ l' d' i', l' + d' = TREE_DEPTH → i' < 3 ^ l' →
    cache.get (lvlStart l' + i') =
      if l ≤ l' ∧ i' = leaves.length / 3 ^ d' then (node H (leaves ++ [h]) d' i').map c.enc
      else none

theorem parseHash_eq {cache : Cache} {s : Store} {leaves : List F} {h : F} {l d : Nat}
    (hl : l + d = TREE_DEPTH) (h0 : l ≠ 0) (hr : Rep H c s.get leaves)
    (hc : CacheInv H c cache leaves h l) (i : Nat) (hi : i < 3 ^ l) :
    parseHash c cache s (lvlStart l + i) = some ((node H (leaves ++ [h]) d i).getD 0) := by
  unfold parseHash
  rw [hc.2.2 l d i hl hi]
  by_cases hp : i = leaves.length / 3 ^ d
  · rw [if_pos ⟨le_refl _, hp⟩]
    have := node_append_path H leaves h d
    rw [← hp] at this
    cases hv : node H (leaves ++ [h]) d i with
    | none => exact absurd hv this
    | some v => simp [c.dec_enc]
  · rw [if_neg (by tauto)]
    simp only
    rw [hr.node_eq l d i hl hi (Or.inl h0), node_append_ne H leaves h d i hp]
    cases node H leaves d i with
    | none => rfl
    | some v => simp [c.dec_enc]

theorem sibTriple_eq {cache : Cache} {s : Store} {leaves : List F} {h : F} {l d : Nat}
    (hl : l + 1 + d = TREE_DEPTH) (hr : Rep H c s.get leaves)
    (hc : CacheInv H c cache leaves h (l + 1)) (i : Nat) (hi : i < 3 ^ (l + 1)) :
    sibTriple c cache s (lvlStart (l + 1) + i, side i) =
      some ((node H (leaves ++ [h]) d (3 * (i / 3))).getD 0,
        (node H (leaves ++ [h]) d (3 * (i / 3) + 1)).getD 0,
        (node H (leaves ++ [h]) d (3 * (i / 3) + 2)).getD 0) := by
  have hq : i / 3 < 3 ^ l := by rw [pow_succ] at hi; omega
  have hp : 3 * (3 ^ l) = 3 ^ (l + 1) := by rw [pow_succ]; omega
  have key : ∀ j, j < 3 → parseHash c cache s (lvlStart (l + 1) + (3 * (i / 3) + j)) =
      some ((node H (leaves ++ [h]) d (3 * (i / 3) + j)).getD 0) := fun j hj =>
    parseHash_eq H c hl (by omega) hr hc _ (by omega)
  have k0 := key 0 (by omega)
  have k1 := key 1 (by omega)
  have k2 := key 2 (by omega)
  have h3 : i % 3 = 0 ∨ i % 3 = 1 ∨ i % 3 = 2 := by omega
  have hs : 0 < lvlStart (l + 1) := by simp [lvlStart]
  rcases h3 with h | h | h
  · have e0 : lvlStart (l + 1) + i = lvlStart (l + 1) + (3 * (i / 3) + 0) := by omega
    have e1 : lvlStart (l + 1) + i + 1 = lvlStart (l + 1) + (3 * (i / 3) + 1) := by omega
    have e2 : lvlStart (l + 1) + i + 2 = lvlStart (l + 1) + (3 * (i / 3) + 2) := by omega
    simp only [sibTriple, side, h, if_true]
    rw [e1, e2, e0, k0, k1, k2]; rfl
  · have e0 : lvlStart (l + 1) + i - 1 = lvlStart (l + 1) + (3 * (i / 3) + 0) := by omega
    have e1 : lvlStart (l + 1) + i = lvlStart (l + 1) + (3 * (i / 3) + 1) := by omega
    have e2 : lvlStart (l + 1) + i + 1 = lvlStart (l + 1) + (3 * (i / 3) + 2) := by omega
    simp only [sibTriple, side, h]
    simp only [one_ne_zero, if_false, if_true]
    rw [e0, e2, e1, k0, k1, k2]; rfl
  · have e0 : lvlStart (l + 1) + i - 2 = lvlStart (l + 1) + (3 * (i / 3) + 0) := by omega
    have e1 : lvlStart (l + 1) + i - 1 = lvlStart (l + 1) + (3 * (i / 3) + 1) := by omega
    have e2 : lvlStart (l + 1) + i = lvlStart (l + 1) + (3 * (i / 3) + 2) := by omega
    simp only [sibTriple, side, h]
    have n1 : ¬ (2 : Nat) = 0 := by omega
    have n2 : ¬ (2 : Nat) = 1 := by omega
    simp only [n1, n2, if_false]
    rw [e0, e1, e2, k0, k1, k2]; rfl

theorem cacheInv_step {cache : Cache} {leaves : List F} {h : F} {l d : Nat}
    (hl : l + 1 + d = TREE_DEPTH) (hn : leaves.length < 3 ^ TREE_DEPTH)
    (hc : CacheInv H c cache leaves h (l + 1)) :
    CacheInv H c
      (cache.set (lvlStart l + leaves.length / 3 ^ (d + 1))
        (c.enc (H ((node H (leaves ++ [h]) d (3 * (leaves.length / 3 ^ (d + 1)))).getD 0)
          ((node H (leaves ++ [h]) d (3 * (leaves.length / 3 ^ (d + 1)) + 1)).getD 0)
          ((node H (leaves ++ [h]) d (3 * (leaves.length / 3 ^ (d + 1)) + 2)).getD 0))))
      leaves h l := by
  have hq : leaves.length / 3 ^ (d + 1) < 3 ^ l := by
    rw [Nat.div_lt_iff_lt_mul (by positivity), ← pow_add]
    have : l + (d + 1) = TREE_DEPTH := by omega
    rw [this]; exact hn
  refine ⟨Cache.nodup_set _ _ _ hc.1, ?_, ?_⟩
  · intro e he
    unfold Cache.set at he
    rw [List.mem_append] at he
    rcases he with he | he
    · exact hc.2.1 e (List.mem_filter.mp he).1
    · simp at he
      subst he
      exact ⟨key_lt_u64 (by omega) hq, _, rfl⟩
  · intro l' d' i' hl' hi'
    rw [Cache.get_set]
    by_cases hk : lvlStart l' + i' = lvlStart l + leaves.length / 3 ^ (d + 1)
    · obtain ⟨e1, e2⟩ := key_inj hi' hq hk
      subst e1
      have hd' : d' = d + 1 := by omega
      subst hd'
      subst e2
      rw [if_pos rfl, if_pos ⟨le_refl _, rfl⟩, node_append_path_succ]
      rfl
    · rw [if_neg hk, hc.2.2 l' d' i' hl' hi']
      by_cases hll : l' = l
      · subst hll
        have hd' : d' = d + 1 := by omega
        subst hd'
        rw [if_neg (by omega), if_neg]
        rintro ⟨_, h2⟩
        exact hk (by rw [h2])
      · by_cases h1 : l + 1 ≤ l' ∧ i' = leaves.length / 3 ^ d'
        · rw [if_pos h1, if_pos ⟨by omega, h1.2⟩]
        · rw [if_neg h1, if_neg]
          rintro ⟨h2, h3⟩
          exact h1 ⟨by omega, h3⟩

theorem updateLoop_eq {s : Store} {leaves : List F} {h : F} (hr : Rep H c s.get leaves)
    (hn : leaves.length < 3 ^ TREE_DEPTH) (l : Nat) :
    ∀ (d : Nat) (cache : Cache), l + d = TREE_DEPTH → CacheInv H c cache leaves h l →
      ∃ cache', updateLoop c H s (pathKeysFrom (l + 1) (lvlStart l + leaves.length / 3 ^ d)) cache =
        some cache' ∧ CacheInv H c cache' leaves h 0 := by
  induction l with
  | zero =>
    intro d cache hl hc
    have : leaves.length / 3 ^ d < 3 ^ 0 := by
      have hd : d = TREE_DEPTH := by omega
      rw [hd, pow_zero, Nat.div_lt_iff_lt_mul (by positivity)]; simpa using hn
    rw [pathKeys_zero _ this]
    exact ⟨cache, rfl, hc⟩
  | succ l ih =>
    intro d cache hl hc
    rw [pathKeys_succ]
    have hdiv : leaves.length / 3 ^ d / 3 = leaves.length / 3 ^ (d + 1) := by
      rw [pow_succ, Nat.div_div_eq_div_mul]
    have hhead : pathKeysFrom (l + 1) (lvlStart l + leaves.length / 3 ^ d / 3) =
        (pathStep (lvlStart l + leaves.length / 3 ^ d / 3)).1 ::
          pathKeysFrom l (pathStep (lvlStart l + leaves.length / 3 ^ d / 3)).2 := rfl
    have hfst : (pathStep (lvlStart l + leaves.length / 3 ^ d / 3)).1.1 =
        lvlStart l + leaves.length / 3 ^ (d + 1) := by
      rw [hdiv]; unfold pathStep; split
      · rfl
      · split <;> rfl
    have hi : leaves.length / 3 ^ d < 3 ^ (l + 1) := by
      rw [Nat.div_lt_iff_lt_mul (by positivity), ← pow_add, hl]; exact hn
    rw [hhead, updateLoop, sibTriple_eq H c hl hr hc _ hi]
    simp only [Option.bind_eq_bind, Option.bind_some]
    rw [hfst, hdiv]
    exact ih (d + 1) _ (by omega) (cacheInv_step H c hl hn hc)

theorem cacheInv_init (leaves : List F) (h : F) (hn : leaves.length < 3 ^ TREE_DEPTH) :
    CacheInv H c (Cache.set [] (LEAF_START + leaves.length) (c.enc h)) leaves h TREE_DEPTH := by
  rw [leaf_start_eq]
  refine ⟨by simp [Cache.set], ?_, ?_⟩
  · intro e he
    simp [Cache.set] at he
    subst he
    exact ⟨key_lt_u64 (le_refl _) hn, _, rfl⟩
  · intro l' d' i' hl' hi'
    rw [Cache.get_set]
    by_cases hk : lvlStart l' + i' = lvlStart TREE_DEPTH + leaves.length
    · obtain ⟨e1, e2⟩ := key_inj hi' hn hk
      have : d' = 0 := by omega
      subst this; subst e1; subst e2
      simp [node]
    · rw [if_neg hk, if_neg]
      · rfl
      · rintro ⟨h1, h2⟩
        have : d' = 0 := by omega
        subst this
        have : l' = TREE_DEPTH := by omega
        subst this
        simp at h2
        exact hk (by rw [h2])

/-- adding a leaf keeps the representation -/
theorem add_rep {t : Tree} {leaves : List F} (h : F) (hr : Rep H c t.store.get leaves)
    (hcount : t.entryCount = leaves.length) (hn : leaves.length < 3 ^ TREE_DEPTH) :
    ∃ t', t.add c H h = some (t', leaves.length) ∧ Rep H c t'.store.get (leaves ++ [h]) ∧
      t'.entryCount = leaves.length + 1 ∧ t'.store.hist = t.store.hist ∧
      t'.store.height = t.store.height := by
  have h0 := cacheInv_init H c leaves h hn
  obtain ⟨cache', hu, hci⟩ := updateLoop_eq H c hr hn TREE_DEPTH 0 _ (by simp) h0
  have hkeys : getPathKeys t.entryCount =
      pathKeysFrom (TREE_DEPTH + 1) (lvlStart TREE_DEPTH + leaves.length / 3 ^ 0) := by
    rw [getPathKeys, leaf_start_eq, hcount]; simp
  have hcons : getPathKeys t.entryCount =
      (pathStep (LEAF_START + leaves.length)).1 ::
        pathKeysFrom TREE_DEPTH (pathStep (LEAF_START + leaves.length)).2 := by
    rw [getPathKeys, hcount]; rfl
  have hfst : (pathStep (LEAF_START + leaves.length)).1.1 = LEAF_START + leaves.length := by
    unfold pathStep; split
    · rfl
    · split <;> rfl
  have hadd : t.add c H h = some
      ({ entryCount := t.entryCount + 1,
         store := (flush t.store cache').set ENTRY_COUNT_KEY (beBytes 8 (t.entryCount + 1)) },
        t.entryCount) := by
    unfold Tree.add
    simp only
    rw [hcons]
    simp only
    rw [← hcons, hfst, hkeys, hu]
  have hne : ∀ a, ENTRY_COUNT_KEY ≠ storeKey a := fun a e => storeKey_ne_count a e.symm
  refine ⟨_, hadd.trans (by rw [hcount]), ⟨?_, ?_, ?_, ?_⟩, by simp [hcount], ?_, ?_⟩
  · intro l d i hl hi _
    simp only [Store.get_set, storeKey_ne_count, if_false]
    rw [flush_get _ _ _ (key_lt_u64 (by omega) hi) hci.1 (fun e he => (hci.2.1 e he).1), hci.2.2 l d i hl hi]
    by_cases hp : i = leaves.length / 3 ^ d
    · rw [if_pos ⟨Nat.zero_le _, hp⟩]
      have := node_append_path H leaves h d
      rw [← hp] at this
      cases hv : node H (leaves ++ [h]) d i with
      | none => exact absurd hv this
      | some v => simp
    · rw [if_neg (by tauto)]
      simp only
      rw [node_append_ne H leaves h d i hp]
      by_cases h0' : l ≠ 0 ∨ leaves ≠ []
      · exact hr.node_eq l d i hl hi h0'
      · exfalso
        push Not at h0'
        obtain ⟨hl0, hle⟩ := h0'
        subst hl0
        subst hle
        simp only [pow_zero, Nat.lt_one_iff] at hi
        subst hi
        simp at hp
  · intro hnil
    simp at hnil
  · simp [hcount]
  · intro k b hk hb
    simp only [Store.get_set, hk, if_false] at hb
    exact flush_wf c cache' t.store (fun e he => (hci.2.1 e he).2) hr.wf k b hk hb
  · simp only [Store.set]
    exact (flush_hist cache' t.store).1
  · simp only [Store.set]
    exact (flush_hist cache' t.store).2

end

end Verif.Merkle

namespace Verif.Merkle

/-! ### Histories -/

section
variable {F : Type} [Zero F] (c : Codec F) (H : F → F → F → F)

theorem Tree.runFrom_append (t : Tree) (a b : List (Op F)) :
    Tree.runFrom c H t (a ++ b) = (Tree.runFrom c H t a).bind fun t' => Tree.runFrom c H t' b := by
  induction a generalizing t with
  | nil => rfl
  | cons o a ih =>
    simp only [List.cons_append, Tree.runFrom]
    cases t.step c H o with
    | none => rfl
    | some t' => exact ih t'

theorem runTree_append (a b : List (Op F)) :
    runTree c H (a ++ b) = (runTree c H a).bind fun t => Tree.runFrom c H t b := by
  unfold runTree
  cases (Tree.new c Store.empty).2 with
  | none => rfl
  | some t => exact Tree.runFrom_append c H t a b

/-- the concrete tree represents the abstract state -/
structure Sim (t : Tree) (s : Spec F) : Prop where
  cur : Rep H c t.store.get s.cur
  count : t.entryCount = s.cur.length
  nver : s.versions.length = t.store.height + 1
  vers : ∀ v leaves, s.versions.reverse[v]? = some leaves → Rep H c (t.store.hist v) leaves

theorem Sim.committed {t : Tree} {s : Spec F} (h : Sim c H t s) :
    Rep H c (t.store.hist t.store.height) s.committed := by
  apply h.vers
  have hn := h.nver
  unfold Spec.committed
  cases hv : s.versions with
  | nil => simp [hv] at hn
  | cons x xs =>
    simp only [hv, List.length_cons, Nat.add_right_cancel_iff] at hn
    simp [← hn]

theorem new_of_rep {s : Store} {leaves : List F} (hr : Rep H c s.get leaves)
    (hn : leaves.length ≤ 3 ^ TREE_DEPTH) :
    Tree.new c s = (s, some { entryCount := leaves.length, store := s }) := by
  unfold Tree.new
  rw [hr.count]
  have h8 : (beBytes 8 leaves.length).take 8 = beBytes 8 leaves.length :=
    List.take_of_length_le (by simp)
  have hlt : leaves.length < 256 ^ 8 :=
    lt_of_le_of_lt hn (by decide)
  simp [h8, ofBE_beBytes_of_lt hlt]

theorem sim_init : ∃ t, (Tree.new c Store.empty).2 = some t ∧ Sim c H t Spec.init := by
  refine ⟨_, rfl, ?_⟩
  have hrep : Rep H c
      (((Store.empty.set ROOT_KEY (c.enc 0)).set ENTRY_COUNT_KEY (beBytes 8 0)).get) [] := by
    refine ⟨?_, ?_, ?_, ?_⟩
    · intro l d i hl hi h0
      rcases h0 with h0 | h0
      · rw [Store.get_set, if_neg (storeKey_ne_count _), Store.get_set, if_neg]
        · have : node H ([] : List F) d i = none := by rw [node_isNone_iff]; simp
          rw [this]; rfl
        · rw [← storeKey_zero]
          intro e
          have hk := storeKey_inj (key_lt_u64 (by omega) hi) (by norm_num) e
          have hs : lvlStart l ≥ 1 := by
            cases l with
            | zero => exact absurd rfl h0
            | succ l => simp [lvlStart]
          omega
      · exact absurd rfl h0
    · intro _
      rw [Store.get_set, if_neg (storeKey_ne_count _), Store.get_set, storeKey_zero, if_pos rfl]
    · simp
    · intro k b hk hb
      rw [Store.get_set, if_neg hk, Store.get_set] at hb
      split at hb
      · exact ⟨0, (Option.some.inj hb).symm⟩
      · simp [Store.empty, Store.get] at hb
  refine ⟨?_, rfl, rfl, ?_⟩
  · have : ∀ s : Store, (s.commit 0).get = s.get := by
      intro s; funext k; simp [Store.commit, Store.get]
    simp only [if_true]
    rw [this]
    exact hrep
  · intro v leaves hv
    have : v = 0 ∧ leaves = [] := by
      cases v with
      | zero => simpa [Spec.init, eq_comm] using hv
      | succ v => simp [Spec.init] at hv
    obtain ⟨rfl, rfl⟩ := this
    simpa [Store.commit] using hrep

theorem get_commit (s : Store) (h : Nat) : (s.commit h).get = s.get := by
  funext k; simp [Store.commit, Store.get]

theorem get_discard (s : Store) : s.discard.get = s.hist s.height := by
  funext k; simp [Store.discard, Store.get]

/-- one operation: the concrete step succeeds and the simulation is kept -/
theorem sim_step {t : Tree} {s : Spec F} (h : Sim c H t s) (o : Op F)
    (hcap : (s.step o).cur.length ≤ 3 ^ TREE_DEPTH) :
    ∃ t', t.step c H o = some t' ∧ Sim c H t' (s.step o) := by
  cases o with
  | add x =>
    simp only [Spec.step, List.length_append, List.length_cons, List.length_nil] at hcap
    obtain ⟨t', ha, hr, hc, hh, hg⟩ := add_rep H c x h.cur h.count (by omega)
    refine ⟨t', by simp [Tree.step, ha], ⟨hr, ?_, ?_, ?_⟩⟩
    · simp [Spec.step, hc]
    · rw [hg]; exact h.nver
    · rw [hh]; exact h.vers
  | commit =>
    refine ⟨_, rfl, ⟨?_, h.count, ?_, ?_⟩⟩
    · rw [get_commit]; exact h.cur
    · simp [Spec.step, Store.commit, h.nver]
    · intro v leaves hv
      simp only [Spec.step, List.reverse_cons] at hv
      by_cases hlt : v < s.versions.length
      · rw [List.getElem?_append_left (by simpa using hlt)] at hv
        have := h.vers v leaves hv
        have hne : v ≠ t.store.height + 1 := by have := h.nver; omega
        simpa [Store.commit, hne] using this
      · rw [List.getElem?_append_right (by simpa using hlt)] at hv
        simp only [List.length_reverse] at hv
        have hz : v - s.versions.length = 0 := by
          by_contra hz
          rw [List.getElem?_eq_none (by simp; omega)] at hv
          cases hv
        rw [hz] at hv
        simp at hv
        subst hv
        have hve : v = t.store.height + 1 := by have := h.nver; omega
        subst hve
        simpa [Store.commit] using h.cur
  | reopen =>
    exact ⟨{ entryCount := s.cur.length, store := t.store },
      by rw [Tree.step, new_of_rep c H h.cur hcap], ⟨h.cur, rfl, h.nver, h.vers⟩⟩
  | crash =>
    have hr : Rep H c t.store.discard.get s.committed := by rw [get_discard]; exact h.committed
    exact ⟨{ entryCount := s.committed.length, store := t.store.discard },
      by rw [Tree.step, new_of_rep c H hr hcap], ⟨hr, rfl, h.nver, h.vers⟩⟩
  | failCommit =>
    have hr : Rep H c t.store.discard.get s.committed := by rw [get_discard]; exact h.committed
    refine ⟨{ entryCount := s.committed.length, store := t.store.discard }, ?_,
      ⟨hr, rfl, h.nver, h.vers⟩⟩
    have : (t.commit false).1.store = t.store.discard := rfl
    rw [Tree.step, this, new_of_rep c H hr hcap]

/-- all leaf lists of a spec state are within `n` -/
def Spec.bounded (s : Spec F) (n : Nat) : Prop :=
  s.cur.length ≤ n ∧ ∀ v ∈ s.versions, v.length ≤ n

theorem Spec.committed_bounded {s : Spec F} {n : Nat} (h : s.bounded n) :
    s.committed.length ≤ n := by
  unfold Spec.committed
  cases hv : s.versions with
  | nil => simp
  | cons x xs => simpa using h.2 x (by simp [hv])

theorem Spec.step_bounded {s : Spec F} {n : Nat} (h : s.bounded n) (o : Op F) :
    (s.step o).bounded (n + adds [o]) := by
  have hc := Spec.committed_bounded h
  cases o with
  | add x =>
    refine ⟨by simpa [Spec.step, adds] using h.1, fun v hv => ?_⟩
    have := h.2 v hv
    simp [adds]; omega
  | commit =>
    refine ⟨by simpa [Spec.step, adds] using h.1, fun v hv => ?_⟩
    simp only [Spec.step, List.mem_cons] at hv
    rcases hv with rfl | hv
    · simpa [adds] using h.1
    · simpa [adds] using h.2 v hv
  | reopen => simpa [Spec.step, adds] using h
  | crash => exact ⟨by simpa [Spec.step, adds] using hc, by simpa [Spec.step, adds] using h.2⟩
  | failCommit => exact ⟨by simpa [Spec.step, adds] using hc, by simpa [Spec.step, adds] using h.2⟩

theorem adds_append (a b : List (Op F)) : adds (a ++ b) = adds a + adds b := by
  simp [adds]

theorem sim_runFrom (ops : List (Op F)) (t : Tree) (s : Spec F) (n : Nat) (h : Sim c H t s)
    (hb : s.bounded n) (hcap : n + adds ops ≤ 3 ^ TREE_DEPTH) :
    ∃ t', Tree.runFrom c H t ops = some t' ∧ Sim c H t' (ops.foldl Spec.step s) ∧
      (ops.foldl Spec.step s).bounded (n + adds ops) := by
  induction ops generalizing t s n with
  | nil => exact ⟨t, rfl, h, by simpa [adds] using hb⟩
  | cons o ops ih =>
    have e : adds (o :: ops) = adds [o] + adds ops := adds_append [o] ops
    have hb' := Spec.step_bounded hb o
    obtain ⟨t', h1, h2⟩ := sim_step c H h o (by have := hb'.1; omega)
    obtain ⟨t'', h3, h4, h5⟩ := ih t' (s.step o) _ h2 hb' (by omega)
    refine ⟨t'', by simp [Tree.runFrom, h1, h3], h4, ?_⟩
    rw [e, ← Nat.add_assoc]; exact h5

/-- every history within capacity runs without error and represents the abstract state -/
theorem sim_run (ops : List (Op F)) (hcap : adds ops ≤ 3 ^ TREE_DEPTH) :
    ∃ t, runTree c H ops = some t ∧ Sim c H t (Spec.run ops) ∧
      (Spec.run ops).bounded (adds ops) := by
  obtain ⟨t0, h0, hs⟩ := sim_init c H
  obtain ⟨t, h1, h2, h3⟩ := sim_runFrom c H ops t0 Spec.init 0 hs
    ⟨by simp [Spec.init], by simp [Spec.init]⟩ (by simpa using hcap)
  exact ⟨t, by simp [runTree, h0, h1], h2, by simpa [Spec.run] using h3⟩

/-! ### Reading -/

theorem rootPos_eq (depth : Nat) : rootPos depth = lvlStart (TREE_DEPTH - depth) := by
  unfold rootPos
  induction TREE_DEPTH - depth with
  | zero => rfl
  | succ n ih => rw [List.range_succ, List.map_append, List.sum_append, ih, lvlStart_succ]; simp

theorem node_zero_ne_none {leaves : List F} (h : leaves ≠ []) (d : Nat) :
    node H leaves d 0 ≠ none := by
  rw [Ne, node_isNone_iff]
  have := List.length_pos_iff.mpr h
  omega

theorem rep_root {get : Snapshot} {leaves : List F} (hr : Rep H c get leaves) (depth : Nat)
    (hd : depth ≤ TREE_DEPTH) (hne : leaves ≠ []) :
    get (storeKey (rootPos depth)) = some (c.enc (specRoot H depth leaves)) := by
  rw [rootPos_eq]
  have := hr.node_eq (TREE_DEPTH - depth) depth 0 (by omega) (by positivity) (Or.inr hne)
  rw [Nat.add_zero] at this
  rw [this]
  unfold specRoot
  cases hv : node H leaves depth 0 with
  | none => exact absurd hv (node_zero_ne_none H hne depth)
  | some v => simp

theorem rep_root_top {get : Snapshot} {leaves : List F} (hr : Rep H c get leaves) :
    get (storeKey (rootPos TREE_DEPTH)) = some (c.enc (specRoot H TREE_DEPTH leaves)) := by
  by_cases hne : leaves = []
  · have e : rootPos TREE_DEPTH = 0 := by rw [rootPos_eq]; simp [lvlStart]
    have hn : node H ([] : List F) TREE_DEPTH 0 = none := by rw [node_isNone_iff]; simp
    rw [e, hr.empty_root hne, specRoot, hne, hn]
    rfl
  · exact rep_root c H hr _ (le_refl _) hne

theorem rep_root_empty {get : Snapshot} (hr : Rep H c get ([] : List F)) (depth : Nat)
    (hd : depth < TREE_DEPTH) : get (storeKey (rootPos depth)) = none := by
  rw [rootPos_eq]
  have := hr.node_eq (TREE_DEPTH - depth) depth 0 (by omega) (by positivity) (Or.inl (by omega))
  rw [Nat.add_zero] at this
  have hn : node H ([] : List F) depth 0 = none := by rw [node_isNone_iff]; simp
  rw [this, hn]; rfl

/-- the proof node for position `i` at height `d` of the abstract tree -/
def specProofNode (leaves : List F) (d i : Nat) : ProofNode F :=
  let q := 3 * (i / 3)
  let v := fun j => (node H leaves d (q + j)).getD 0
  match side i with
  | .left => { siblings1 := v 1, siblings2 := v 2, path := .left }
  | .middle => { siblings1 := v 0, siblings2 := v 2, path := .middle }
  | .right => { siblings1 := v 0, siblings2 := v 1, path := .right }

theorem sibling_eq {get : Snapshot} {leaves : List F} (hr : Rep H c get leaves) {l d i : Nat}
    (hl : l + 1 + d = TREE_DEPTH) (hi : i < 3 ^ (l + 1)) :
    sibling c get (lvlStart (l + 1) + i) = some ((node H leaves d i).getD 0) := by
  unfold sibling
  rw [hr.node_eq (l + 1) d i hl hi (Or.inl (by omega))]
  cases node H leaves d i with
  | none => rfl
  | some v => simp [c.dec_enc]

theorem proofNode_eq {s : Store} {get : Snapshot} {leaves : List F}
    (hs : Rep H c s.get leaves) (hr : Rep H c get leaves) {l d i : Nat}
    (hl : l + 1 + d = TREE_DEPTH) (hi : i < 3 ^ (l + 1)) :
    proofNode c s get (lvlStart (l + 1) + i, side i) =
      if node H leaves d i = none then none else some (specProofNode H leaves d i) := by
  have hp : 3 * (3 ^ l) = 3 ^ (l + 1) := by rw [pow_succ]; omega
  have key : ∀ j, j < 3 → sibling c get (lvlStart (l + 1) + (3 * (i / 3) + j)) =
      some ((node H leaves d (3 * (i / 3) + j)).getD 0) := fun j hj =>
    sibling_eq c H hr hl (by omega)
  have k0 := key 0 (by omega)
  have k1 := key 1 (by omega)
  have k2 := key 2 (by omega)
  unfold proofNode Store.exists
  rw [hs.node_eq (l + 1) d i hl hi (Or.inl (by omega))]
  cases hv : node H leaves d i with
  | none => simp
  | some v =>
    simp only [Option.map_some, Option.isSome_some, if_true, reduceCtorEq, if_false]
    have h3 : i % 3 = 0 ∨ i % 3 = 1 ∨ i % 3 = 2 := by omega
    have hst : 0 < lvlStart (l + 1) := by simp [lvlStart]
    rcases h3 with h | h | h
    · have e1 : lvlStart (l + 1) + i + 1 = lvlStart (l + 1) + (3 * (i / 3) + 1) := by omega
      have e2 : lvlStart (l + 1) + i + 2 = lvlStart (l + 1) + (3 * (i / 3) + 2) := by omega
      have hsd : side i = .left := by simp [side, h]
      simp only [hsd, siblingKeys, specProofNode]
      rw [e1, e2, k1, k2]; rfl
    · have e1 : lvlStart (l + 1) + i - 1 = lvlStart (l + 1) + (3 * (i / 3) + 0) := by omega
      have e2 : lvlStart (l + 1) + i + 1 = lvlStart (l + 1) + (3 * (i / 3) + 2) := by omega
      have hsd : side i = .middle := by simp [side, h]
      simp only [hsd, siblingKeys, specProofNode]
      rw [e1, e2, k0, k2]; rfl
    · have e1 : lvlStart (l + 1) + i - 2 = lvlStart (l + 1) + (3 * (i / 3) + 0) := by omega
      have e2 : lvlStart (l + 1) + i - 1 = lvlStart (l + 1) + (3 * (i / 3) + 1) := by omega
      have hsd : side i = .right := by simp [side, h]
      simp only [hsd, siblingKeys, specProofNode]
      rw [e1, e2, k0, k1]; rfl

/-- proof nodes along the path from position `i` at height `d`, `n` levels -/
def specProofNodes (leaves : List F) : Nat → Nat → Nat → List (ProofNode F)
  | 0, _, _ => []
  | n + 1, d, i => specProofNode H leaves d i :: specProofNodes leaves n (d + 1) (i / 3)

theorem node_div_ne_none {leaves : List F} {d i : Nat} (h : node H leaves d i ≠ none) :
    node H leaves (d + 1) (i / 3) ≠ none := by
  rw [Ne, node_isNone_iff] at h ⊢
  have : i / 3 * 3 ^ (d + 1) ≤ i * 3 ^ d := by
    rw [pow_succ, Nat.mul_comm (3 ^ d) 3, ← Nat.mul_assoc]
    exact Nat.mul_le_mul_right _ (by omega)
  omega

theorem mapM_proofNode {s : Store} {get : Snapshot} {leaves : List F}
    (hs : Rep H c s.get leaves) (hr : Rep H c get leaves) (l : Nat) :
    ∀ (n d i : Nat), l + d = TREE_DEPTH → n ≤ l → i < 3 ^ l → node H leaves d i ≠ none →
      ((pathKeysFrom (l + 1) (lvlStart l + i)).take n).mapM (proofNode c s get) =
        some (specProofNodes H leaves n d i) := by
  induction l with
  | zero =>
    intro n d i hl hn _ _
    have : n = 0 := by omega
    subst this; simp [specProofNodes]
  | succ l ih =>
    intro n d i hl hn hi hne
    cases n with
    | zero => simp [specProofNodes]
    | succ n =>
      rw [pathKeys_succ, List.take_succ_cons, List.mapM_cons, proofNode_eq c H hs hr hl hi,
        if_neg hne, ih n (d + 1) (i / 3) (by omega) (by omega) (by rw [pow_succ] at hi; omega)
          (node_div_ne_none H hne)]
      rfl

/-- folding the proof nodes recomputes the ancestor -/
theorem fold_specProofNodes {leaves : List F} (n : Nat) :
    ∀ (d i : Nat) (v : F), node H leaves d i = some v →
      node H leaves (d + n) (i / 3 ^ n) =
        some ((specProofNodes H leaves n d i).foldl (verifyStep H) v) := by
  induction n with
  | zero => intro d i v h; simpa [specProofNodes] using h
  | succ n ih =>
    intro d i v h
    simp only [specProofNodes, List.foldl_cons]
    have hstep : node H leaves (d + 1) (i / 3) =
        some (verifyStep H v (specProofNode H leaves d i)) := by
      have hne := node_div_ne_none H (leaves := leaves) (d := d) (i := i) (by simp [h])
      rw [node_succ] at hne ⊢
      split at hne
      · exact absurd rfl hne
      · rename_i hc
        rw [if_neg hc]
        have h3 : i % 3 = 0 ∨ i % 3 = 1 ∨ i % 3 = 2 := by omega
        rcases h3 with h' | h' | h'
        · have e : 3 * (i / 3) = i := by omega
          have hsd : side i = .left := by simp [side, h']
          simp only [verifyStep, specProofNode, hsd]
          rw [e, h]; rfl
        · have e : 3 * (i / 3) + 1 = i := by omega
          have hsd : side i = .middle := by simp [side, h']
          simp only [verifyStep, specProofNode, hsd]
          rw [e, h]; rfl
        · have e : 3 * (i / 3) + 2 = i := by omega
          have hsd : side i = .right := by simp [side, h']
          simp only [verifyStep, specProofNode, hsd]
          rw [e, h]; rfl
    have := ih (d + 1) (i / 3) _ hstep
    rw [Nat.div_div_eq_div_mul, ← pow_succ'] at this
    rw [show d + (n + 1) = d + 1 + n by omega]
    exact this

theorem specProofNodes_length (leaves : List F) (n d i : Nat) :
    (specProofNodes H leaves n d i).length = n := by
  induction n generalizing d i with
  | zero => rfl
  | succ n ih => simp [specProofNodes, ih]

end

end Verif.Merkle
