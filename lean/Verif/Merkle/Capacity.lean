import Verif.Merkle.Props

/-!
C09: what the code does with the addition that follows the `3^20`-th one.
-/

namespace Verif.Merkle

section
variable {F : Type} [Zero F] (c : Codec F) (H : F → F → F → F)

/-- every cached value is an encoding, keys are unique and fit in 64 bits -/
def CacheWf (cache : Cache) : Prop :=
  (cache.map Prod.fst).Nodup ∧ ∀ e ∈ cache, e.1 < 256 ^ 8 ∧ ∃ x, e.2 = c.enc x

theorem CacheWf.set {cache : Cache} (hc : CacheWf c cache) (k : Nat) (hk : k < 256 ^ 8) (x : F) :
    CacheWf c (cache.set k (c.enc x)) := by
  refine ⟨?_, ?_⟩
  · unfold Cache.set
    rw [List.map_append, List.nodup_append]
    refine ⟨(hc.1).sublist (List.Sublist.map _ List.filter_sublist), by simp, ?_⟩
    intro a ha b hb
    simp only [List.map_cons, List.map_nil, List.mem_singleton] at hb
    subst hb
    rw [List.mem_map] at ha
    obtain ⟨e, he, rfl⟩ := ha
    have := (List.mem_filter.mp he).2
    simpa using this
  · intro e he
    unfold Cache.set at he
    rcases List.mem_append.mp he with h | h
    · exact hc.2 e (List.mem_filter.mp h).1
    · simp only [List.mem_singleton] at h
      subst h
      exact ⟨hk, x, rfl⟩

theorem CacheWf.get {cache : Cache} (hc : CacheWf c cache) {k : Nat} {b : Bytes}
    (hb : cache.get k = some b) : ∃ x, b = c.enc x := by
  have : (k, b) ∈ cache := by
    unfold Cache.get at hb
    clear hc
    induction cache with
    | nil => simp at hb
    | cons e cache ih =>
      rw [List.lookup_cons] at hb
      split at hb
      · rename_i he
        have : k = e.1 := by simpa using he
        simp only [Option.some.injEq] at hb
        rw [this, ← hb]
        simp
      · exact List.mem_cons_of_mem _ (ih hb)
  exact (hc.2 _ this).2

theorem parseHash_total {cache : Cache} {s : Store} (hc : CacheWf c cache)
    (hs : ∀ k b, k ≠ ENTRY_COUNT_KEY → s.get k = some b → ∃ x, b = c.enc x) (k : Nat) :
    ∃ x, parseHash c cache s k = some x := by
  unfold parseHash
  cases hg : cache.get k with
  | some b =>
    obtain ⟨x, rfl⟩ := hc.get c hg
    exact ⟨x, by simp [c.dec_enc]⟩
  | none =>
    cases hg2 : s.get (storeKey k) with
    | some b =>
      obtain ⟨x, rfl⟩ := hs _ _ (storeKey_ne_count k) hg2
      exact ⟨x, by simp [c.dec_enc]⟩
    | none => exact ⟨0, by simp⟩

theorem sibTriple_total {cache : Cache} {s : Store} (hc : CacheWf c cache)
    (hs : ∀ k b, k ≠ ENTRY_COUNT_KEY → s.get k = some b → ∃ x, b = c.enc x) (e : Nat × TreePath) :
    ∃ x, sibTriple c cache s e = some x := by
  obtain ⟨k, p⟩ := e
  cases p
  · obtain ⟨x, hx⟩ := parseHash_total c hc hs k
    obtain ⟨y, hy⟩ := parseHash_total c hc hs (k + 1)
    obtain ⟨z, hz⟩ := parseHash_total c hc hs (k + 2)
    exact ⟨(x, y, z), by simp [sibTriple, hx, hy, hz]⟩
  · obtain ⟨x, hx⟩ := parseHash_total c hc hs (k - 1)
    obtain ⟨y, hy⟩ := parseHash_total c hc hs k
    obtain ⟨z, hz⟩ := parseHash_total c hc hs (k + 1)
    exact ⟨(x, y, z), by simp [sibTriple, hx, hy, hz]⟩
  · obtain ⟨x, hx⟩ := parseHash_total c hc hs (k - 2)
    obtain ⟨y, hy⟩ := parseHash_total c hc hs (k - 1)
    obtain ⟨z, hz⟩ := parseHash_total c hc hs k
    exact ⟨(x, y, z), by simp [sibTriple, hx, hy, hz]⟩

theorem updateLoop_total {s : Store}
    (hs : ∀ k b, k ≠ ENTRY_COUNT_KEY → s.get k = some b → ∃ x, b = c.enc x)
    (keys : List (Nat × TreePath)) (hk : ∀ e ∈ keys, e.1 < 256 ^ 8) :
    ∀ cache, CacheWf c cache → ∃ cache', updateLoop c H s keys cache = some cache' ∧
      CacheWf c cache' ∧ ∀ k, k ∉ keys.tail.map Prod.fst → cache'.get k = cache.get k := by
  induction keys with
  | nil => intro cache hc; exact ⟨cache, rfl, hc, fun _ _ => rfl⟩
  | cons e keys ih =>
    intro cache hc
    cases keys with
    | nil => exact ⟨cache, rfl, hc, fun _ _ => rfl⟩
    | cons e' rest =>
      obtain ⟨⟨x, y, z⟩, hx⟩ := sibTriple_total c hc hs e
      have hk' : e'.1 < 256 ^ 8 := hk e' (by simp)
      obtain ⟨cache', h1, h2, h3⟩ := ih (fun e he => hk e (List.mem_cons_of_mem _ he))
        _ (hc.set c e'.1 hk' (H x y z))
      refine ⟨cache', ?_, h2, ?_⟩
      · rw [updateLoop, hx]
        simpa using h1
      · intro k hkn
        simp only [List.tail_cons, List.map_cons, List.mem_cons, not_or] at hkn
        rw [h3 k (by simpa using hkn.2), Cache.get_set, if_neg hkn.1]

theorem pathKeysFrom_levels (n : Nat) : ∀ l, n ≤ l →
    (pathKeysFrom n (lvlStart l)).map Prod.fst = (List.range n).map (fun j => lvlStart (l - j)) := by
  induction n with
  | zero => intro l _; rfl
  | succ n ih =>
    intro l hl
    obtain ⟨m, rfl⟩ : ∃ m, l = m + 1 := ⟨l - 1, by omega⟩
    have := pathKeys_succ n m 0
    simp only [Nat.add_zero, Nat.zero_div] at this
    rw [this, List.map_cons, ih m (by omega), List.range_succ_eq_map, List.map_cons, List.map_map]
    congr 1
    apply List.map_congr_left
    intro j _
    simp

theorem lvlStart_lt {a b : Nat} (h : a < b) : lvlStart a < lvlStart b := by
  induction b with
  | zero => omega
  | succ b ih =>
    have hb : lvlStart b < lvlStart (b + 1) := by rw [lvlStart]; omega
    rcases Nat.lt_succ_iff_lt_or_eq.mp h with h | rfl
    · exact lt_trans (ih h) hb
    · exact hb

theorem sibTriple_first {s : Store} (K : Nat) (h x y : F)
    (hx : parseHash c (Cache.set [] K (c.enc h)) s (K + 1) = some x)
    (hy : parseHash c (Cache.set [] K (c.enc h)) s (K + 2) = some y) :
    sibTriple c (Cache.set [] K (c.enc h)) s (K, side 0) = some (h, x, y) := by
  have hself : parseHash c (Cache.set [] K (c.enc h)) s K = some h := by
    unfold parseHash
    rw [Cache.get_set, if_pos rfl]
    simp [c.dec_enc]
  have : side 0 = .left := rfl
  simp [sibTriple, this, hself, hx, hy]

theorem pathKeys_cons (n l : Nat) :
    pathKeysFrom (n + 1) (lvlStart (l + 1)) =
      (lvlStart (l + 1), side 0) :: pathKeysFrom n (lvlStart l) := by
  have := pathKeys_succ n l 0
  rwa [Nat.add_zero, Nat.zero_div, Nat.add_zero] at this

theorem updateLoop_first {s : Store} {cache : Cache} {e e' : Nat × TreePath} {x y z : F}
    {rest : List (Nat × TreePath)} (h : sibTriple c cache s e = some (x, y, z)) :
    updateLoop c H s (e :: e' :: rest) cache =
      updateLoop c H s (e' :: rest) (cache.set e'.1 (c.enc (H x y z))) := by
  rw [updateLoop, h]
  simp

theorem lvl21 : lvlStart 21 < 256 ^ 8 := by norm_num [lvlStart]
theorem lvl20 : lvlStart 20 < 256 ^ 8 := by norm_num [lvlStart]
theorem lvl0 : lvlStart 0 = 0 := rfl

attribute [local irreducible] lvlStart

/-- C09 is violated: on a full tree (`3^20` leaves) one more addition is not refused.  It returns uid `3^20`,
leaves the root as it was (so the new commitment is not bound by it) and overwrites the slot of leaf 0 with a
hash value. -/
theorem C09_full_tree_accepts_addition (ops : List (Op F)) (hcap : adds ops ≤ 3 ^ 20)
    (hfull : (Spec.run ops).cur.length = 3 ^ 20) (h : F) :
    ∃ t t', runTree c H ops = some t ∧ t.add c H h = some (t', 3 ^ 20) ∧
      t'.entryCount = 3 ^ 20 + 1 ∧ t'.getRoot c = t.getRoot c ∧
      ∃ x y, t'.getLeaf c LEAF_START = some (some (H h x y)) := by
  obtain ⟨t, h1, h2, h3⟩ := sim_run c H ops hcap
  have hn : t.entryCount = 3 ^ 20 := by rw [h2.count, hfull]
  have hkey : LEAF_START + t.entryCount = lvlStart 21 := by
    rw [hn, leaf_start_eq, lvlStart_succ 20, TREE_DEPTH]
  have hkeys : getPathKeys t.entryCount = pathKeysFrom 21 (lvlStart 21) := by
    rw [getPathKeys, hkey, TREE_DEPTH]
  have hlv := pathKeysFrom_levels 21 21 (le_refl _)
  have hcons := pathKeys_cons 20 20
  have hcons2 := pathKeys_cons 19 19
  have hbig : ∀ e ∈ pathKeysFrom 21 (lvlStart 21), e.1 < 256 ^ 8 := by
    intro e he
    have : e.1 ∈ (pathKeysFrom 21 (lvlStart 21)).map Prod.fst := List.mem_map_of_mem he
    rw [hlv, List.mem_map] at this
    obtain ⟨j, _, hj⟩ := this
    have : lvlStart (21 - j) ≤ lvlStart 21 := by
      rcases Nat.eq_zero_or_pos j with rfl | hp
      · exact le_refl _
      · exact le_of_lt (lvlStart_lt (by omega))
    have h21 : lvlStart 21 < 256 ^ 8 := lvl21
    omega
  have hc0 : CacheWf c (Cache.set [] (lvlStart 21) (c.enc h)) := by
    have : CacheWf c ([] : Cache) := ⟨by simp, by simp⟩
    exact this.set c _ lvl21 h
  have hwf := h2.cur.wf
  -- first step
  obtain ⟨x, hx⟩ := parseHash_total c hc0 hwf (lvlStart 21 + 1)
  obtain ⟨y, hy⟩ := parseHash_total c hc0 hwf (lvlStart 21 + 2)
  have htri : sibTriple c (Cache.set [] (lvlStart 21) (c.enc h)) t.store (lvlStart 21, side 0) =
      some (h, x, y) := sibTriple_first c _ h x y hx hy
  obtain ⟨cache', g1, g2, g3⟩ := updateLoop_total c H hwf (pathKeysFrom 20 (lvlStart 20))
    (fun e he => hbig e (by rw [hcons]; exact List.mem_cons_of_mem _ he)) _
    (hc0.set c (lvlStart 20) lvl20 (H h x y))
  have hloop : updateLoop c H t.store (pathKeysFrom 21 (lvlStart 21))
      (Cache.set [] (lvlStart 21) (c.enc h)) = some cache' := by
    rw [hcons2] at g1
    rw [hcons, hcons2]
    exact (updateLoop_first c H htri).trans g1
  have htail : ∀ k, (k = 0 ∨ k = lvlStart 20) →
      k ∉ (pathKeysFrom 20 (lvlStart 20)).tail.map Prod.fst := by
    intro k hk hm
    rw [hcons2, List.tail_cons, pathKeysFrom_levels 19 19 (le_refl _), List.mem_map] at hm
    obtain ⟨j, hj, e⟩ := hm
    rw [List.mem_range] at hj
    have a : lvlStart 0 < lvlStart (19 - j) := lvlStart_lt (by omega)
    have b : lvlStart (19 - j) < lvlStart 20 := lvlStart_lt (by omega)
    rcases hk with rfl | rfl
    · rw [lvl0] at a; omega
    · omega
  have hg0 : cache'.get 0 = none := by
    have e20 : lvlStart 0 < lvlStart 20 := lvlStart_lt (by omega)
    have e21 : lvlStart 0 < lvlStart 21 := lvlStart_lt (by omega)
    rw [lvl0] at e20 e21
    rw [g3 0 (htail 0 (Or.inl rfl)), Cache.get_set, if_neg (by omega), Cache.get_set, if_neg (by omega)]
    rfl
  have hg20 : cache'.get (lvlStart 20) = some (c.enc (H h x y)) := by
    rw [g3 _ (htail _ (Or.inr rfl)), Cache.get_set, if_pos rfl]
  have hadd : t.add c H h = some
      ({ entryCount := t.entryCount + 1,
         store := (flush t.store cache').set ENTRY_COUNT_KEY (beBytes 8 (t.entryCount + 1)) },
        t.entryCount) := by
    unfold Tree.add
    simp only
    rw [hkeys, hcons]
    simp only
    rw [← hcons, hloop]
  have hne : ∀ a, ENTRY_COUNT_KEY ≠ storeKey a := fun a e => storeKey_ne_count a e.symm
  have hadd' := hadd
  generalize hst : (flush t.store cache').set ENTRY_COUNT_KEY (beBytes 8 (t.entryCount + 1)) = st at hadd'
  rw [hn] at hadd'
  refine ⟨t, ⟨3 ^ 20 + 1, st⟩, h1, hadd', rfl, ?_, x, y, ?_⟩
  · unfold Tree.getRoot Tree.getRootWithDepth
    rw [if_neg (lt_irrefl _), if_neg (lt_irrefl _)]
    have e : rootPos TREE_DEPTH = 0 := by decide
    simp only [← hst, Store.get_set, storeKey_ne_count, if_false, e]
    rw [flush_get _ _ _ (by norm_num) g2.1 (fun e he => (g2.2 e he).1), hg0]
  · unfold Tree.getLeaf
    rw [leaf_start_eq]
    simp only [← hst, Store.get_set, storeKey_ne_count, if_false]
    rw [show TREE_DEPTH = 20 from rfl, flush_get _ _ _ lvl20 g2.1 (fun e he => (g2.2 e he).1), hg20]
    simp [c.dec_enc]

/-- C09 (part): below capacity an addition is accepted and the new leaf is bound by the new root.  Missing:
the refusal at capacity, which the code does not implement. -/
theorem C09_below_capacity_partial [DecidableEq F] (ops : List (Op F)) (h : F)
    (hcap : adds ops < 3 ^ 20) :
    ∃ t t' p, runTree c H ops = some t ∧ t.add c H h = some (t', (Spec.run ops).cur.length) ∧
      t'.generateProof c (Spec.run ops).cur.length = some p ∧ verify H h p = true ∧
      t'.getRoot c = some p.root := by
  obtain ⟨t, t', h1, _, h3, _⟩ := C01_uids_consecutive c H ops h hcap
  have e : runTree c H (ops ++ [.add h]) = some t' := by
    rw [runTree_append, h1]
    change Tree.runFrom c H t [Op.add h] = some t'
    simp [Tree.runFrom, Tree.step, h3]
  have hrun : (Spec.run (ops ++ [.add h])).cur = (Spec.run ops).cur ++ [h] := by
    simp [Spec.run, Spec.step]
  obtain ⟨t2, p, g1, g2, g3, g4, _⟩ := C02_membership_proofs c H (ops ++ [.add h])
    (by rw [adds_append]; have : adds [Op.add h] = 1 := rfl; omega)
    (Spec.run ops).cur.length h (by rw [hrun]; simp)
  rw [e] at g1
  cases g1
  exact ⟨t, t', p, h1, h3, g2, g3, g4⟩

end

/-- a history that fills the tree: `3^20` additions -/
example : ∃ ops : List (Op Nat), adds ops ≤ 3 ^ 20 ∧ (Spec.run ops).cur.length = 3 ^ 20 := by
  have h1 : ∀ n, adds (List.replicate n (Op.add 1)) = n := by
    intro n
    simp [adds]
  have h2 : ∀ n (s : Spec Nat), ((List.replicate n (Op.add 1)).foldl Spec.step s).cur.length =
      s.cur.length + n := by
    intro n
    induction n with
    | zero => simp
    | succ n ih => intro s; rw [List.replicate_succ, List.foldl_cons, ih]; simp [Spec.step]; omega
  obtain ⟨N, hN⟩ : ∃ N, N = 3 ^ 20 := ⟨_, rfl⟩
  rw [← hN]
  exact ⟨List.replicate N (Op.add 1), le_of_eq (h1 _), by rw [Spec.run, h2]; simp [Spec.init]⟩

end Verif.Merkle
