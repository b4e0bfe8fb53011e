import Verif.Algebra.MsmUnsafe
import Mathlib.Algebra.Polynomial.Roots
import Mathlib.Algebra.Polynomial.Eval.Degree
import Mathlib.LinearAlgebra.LinearIndependent.Defs
import Mathlib.LinearAlgebra.Lagrange
import Mathlib.Algebra.Field.ZMod
import Mathlib.Tactic.NormNum.Prime

/-!
C69, what the condition on neighbours means for polynomial commitments, and what happens without it.

Commitments are made with bases `ψ (fᵢ(s))`, where `s` is the secret of the setup, `ψ` multiplies the generator and the `fᵢ`
are the monomials or the Lagrange polynomials.
-/

namespace Verif.Msm

open Polynomial

/-! ### All pairs that a bucket adds -/

/-- all pairs that the rounds on a bucket add -/
def allPairs {G : Type} [AddCommGroup G] (l : List G) : List (G × G) :=
  if threshold < l.length then neighbours l ++ allPairs (halveWith (· + ·) l) else []
termination_by l.length
decreasing_by
  rename_i h
  rw [halveWith_length]
  unfold threshold at h
  omega

section pairs
variable {G : Type} [AddCommGroup G]

theorem neighbours_length {α : Type} (l : List α) : (neighbours l).length = l.length / 2 := by
  rw [neighbours, chunks2_length]
  split
  · rw [List.length_drop]; omega
  · rfl

theorem allPairs_length (l : List G) : (allPairs l).length ≤ l.length := by
  induction l using allPairs.induct with
  | case1 l h ih =>
    rw [allPairs, if_pos h, List.length_append, neighbours_length]
    rw [halveWith_length] at ih
    omega
  | case2 l h => rw [allPairs, if_neg h]; simp

theorem iterate_length_le (l : List G) (k : Nat) : ((halveWith (· + ·))^[k] l).length ≤ l.length := by
  induction k with
  | zero => exact le_refl _
  | succ k ih => rw [Function.iterate_succ_apply', halveWith_length]; omega

theorem generic_of_allPairs (l : List G) (h : ∀ e ∈ allPairs l, Apart e.1 e.2) : Generic l := by
  induction l using allPairs.induct with
  | case1 l hl ih =>
    rw [allPairs, if_pos hl] at h
    have ih := ih (fun e he => h e (List.mem_append_right _ he))
    intro k hk e he
    cases k with
    | zero => exact h e (List.mem_append_left _ he)
    | succ k => rw [Function.iterate_succ_apply] at hk he; exact ih k hk e he
  | case2 l hl =>
    intro k hk
    exact absurd (lt_of_lt_of_le hk (iterate_length_le l k)) hl

theorem halveWith_map {α β : Type} (f : α → α → α) (g : β → β → β) (h : α → β) (hh : ∀ a b, h (f a b) = g (h a) (h b)) (l : List α) :
    (halveWith f l).map h = halveWith g (l.map h) := by
  rw [halveWith, halveWith, List.map_append, List.length_map, neighbours_map, List.map_map, List.map_map]
  congr 1
  · split
    · rw [List.map_take]
    · rfl
  · exact List.map_congr_left fun e _ => hh e.1 e.2

theorem allPairs_map {H : Type} [AddCommGroup H] (h : G →+ H) (l : List G) :
    allPairs (l.map h) = (allPairs l).map (fun e => (h e.1, h e.2)) := by
  induction l using allPairs.induct with
  | case1 l hl ih =>
    have e1 : allPairs (l.map h) = neighbours (l.map h) ++ allPairs (halveWith (· + ·) (l.map h)) := by
      conv_lhs => rw [allPairs, List.length_map, if_pos hl]
    have e2 : allPairs l = neighbours l ++ allPairs (halveWith (· + ·) l) := by
      conv_lhs => rw [allPairs, if_pos hl]
    rw [e1, e2, List.map_append, neighbours_map, ← ih, halveWith_map (· + ·) (· + ·) h (fun a b => map_add h a b)]
  | case2 l hl => rw [allPairs, List.length_map, if_neg hl, allPairs, if_neg hl]; rfl

theorem chunks2_flatten {α : Type} : ∀ ls : List (List α), ls.length % 2 = 0 → ((chunks2 ls).map (fun e => e.1 ++ e.2)).flatten = ls.flatten
  | [], _ => rfl
  | [_], h => by simp at h
  | a :: b :: l, h => by
    have := chunks2_flatten l (by simpa [Nat.add_assoc] using h)
    simp only [chunks2, List.map_cons, List.flatten_cons, this, List.append_assoc]

theorem halveWith_flatten {α : Type} (ls : List (List α)) : (halveWith (· ++ ·) ls).flatten = ls.flatten := by
  rw [halveWith, neighbours, List.flatten_append]
  split
  · rw [chunks2_flatten _ (by rw [List.length_drop]; omega)]
    conv_rhs => rw [← List.take_append_drop 1 ls, List.flatten_append]
  · rw [chunks2_flatten _ (by omega)]; simp

theorem chunks2_sublist {α : Type} : ∀ (ls : List (List α)) (e : List α × List α), e ∈ chunks2 ls → (e.1 ++ e.2).Sublist ls.flatten
  | [], _, h => by simp [chunks2] at h
  | [_], _, h => by simp [chunks2] at h
  | a :: b :: l, e, h => by
    rcases List.mem_cons.mp h with rfl | h
    · simp only [List.flatten_cons]
      rw [← List.append_assoc]
      exact List.sublist_append_left _ _
    · have := chunks2_sublist l e h
      simp only [List.flatten_cons]
      rw [← List.append_assoc]
      exact this.trans (List.sublist_append_right _ _)

theorem neighbours_sublist {α : Type} (ls : List (List α)) (e : List α × List α) (h : e ∈ neighbours ls) :
    (e.1 ++ e.2).Sublist ls.flatten := by
  unfold neighbours at h
  split at h
  · refine (chunks2_sublist _ e h).trans ?_
    conv_rhs => rw [← List.take_append_drop 1 ls, List.flatten_append]
    exact List.sublist_append_right _ _
  · exact chunks2_sublist _ e h

/-- every pair is a pair of sums over two blocks of the bucket that have nothing in common -/
theorem allPairs_blocks (f : Nat → G) (ls : List (List Nat)) (hne : ∀ b ∈ ls, b ≠ []) (e : G × G)
    (he : e ∈ allPairs (ls.map (fun b => (b.map f).sum))) :
    ∃ a b : List Nat, a ≠ [] ∧ b ≠ [] ∧ (a ++ b).Sublist ls.flatten ∧ e = ((a.map f).sum, (b.map f).sum) := by
  generalize hl : ls.map (fun b => (b.map f).sum) = l at he
  induction l using allPairs.induct generalizing ls with
  | case1 l hlen ih =>
    rw [allPairs, if_pos hlen, List.mem_append] at he
    rcases he with he | he
    · rw [← hl, neighbours_map] at he
      obtain ⟨p, hp, rfl⟩ := List.mem_map.mp he
      exact ⟨p.1, p.2, hne _ (neighbours_mem ls p hp).1, hne _ (neighbours_mem ls p hp).2, neighbours_sublist ls p hp, rfl⟩
    · have := ih (halveWith (· ++ ·) ls) ?_ ?_ he
      · obtain ⟨a, b, h1, h2, h3, h4⟩ := this
        exact ⟨a, b, h1, h2, by rwa [halveWith_flatten] at h3, h4⟩
      · intro b hb
        rw [halveWith, List.mem_append] at hb
        rcases hb with hb | hb
        · split at hb
          · exact hne b (List.mem_of_mem_take hb)
          · simp at hb
        · obtain ⟨p, hp, rfl⟩ := List.mem_map.mp hb
          have := hne _ (neighbours_mem ls p hp).1
          simp [this]
      · rw [halveWith_map (· ++ ·) (· + ·) (fun b => (List.map f b).sum) (fun a b => by simp), hl]
  | case2 l hlen => rw [allPairs, if_neg hlen] at he; simp at he

theorem allPairs_blocks' (f : Nat → G) (idx : List Nat) (e : G × G) (he : e ∈ allPairs (idx.map f)) :
    ∃ a b : List Nat, a ≠ [] ∧ b ≠ [] ∧ (a ++ b).Sublist idx ∧ e = ((a.map f).sum, (b.map f).sum) := by
  have := allPairs_blocks f (idx.map (fun i => [i])) (by simp) e (by
    rw [List.map_map]
    simpa [Function.comp_def] using he)
  have hfl : ∀ idx : List Nat, (idx.map (fun i => [i])).flatten = idx := by
    intro idx
    induction idx with
    | nil => rfl
    | cons i idx ih => rw [List.map_cons, List.flatten_cons, ih]; rfl
  rwa [hfl] at this

end pairs

/-! ### Independent polynomials -/

section independent
variable {K : Type} [Field K]

/-- the four polynomials of which the secret must not be a root -/
noncomputable def exceptional (e : K[X] × K[X]) : List K[X] := [e.1, e.2, e.1 - e.2, e.1 + e.2]

theorem block_ne_zero {n : Nat} {f : Nat → K[X]} (hf : LinearIndepOn K f {i | i < n}) (a b : List Nat) (ha : a ≠ [])
    (hnd : (a ++ b).Nodup) (hlt : ∀ i ∈ a ++ b, i < n) (ε : K) : (a.map f).sum + C ε * (b.map f).sum ≠ 0 := by
  intro h0
  rw [linearIndepOn_iff'] at hf
  have hnda := (List.nodup_append.mp hnd).1
  have hndb := (List.nodup_append.mp hnd).2.1
  have hdis : Disjoint a.toFinset b.toFinset := by
    rw [Finset.disjoint_left]
    intro i hi hib
    exact (List.nodup_append.mp hnd).2.2 i (List.mem_toFinset.mp hi) i (List.mem_toFinset.mp hib) rfl
  have key := hf (a.toFinset ∪ b.toFinset) (fun i => if i ∈ a then 1 else ε) (by
    intro i hi
    simp only [Finset.coe_union, List.coe_toFinset, Set.mem_union, Set.mem_ofPred_eq] at hi
    exact hlt i (List.mem_append.mpr hi)) (by
    rw [Finset.sum_union hdis, ← h0]
    congr 1
    · rw [← List.sum_toFinset f hnda]
      refine Finset.sum_congr rfl fun i hi => ?_
      rw [if_pos (List.mem_toFinset.mp hi), one_smul]
    · rw [← List.sum_toFinset f hndb, Finset.mul_sum]
      refine Finset.sum_congr rfl fun i hi => ?_
      have : i ∉ a := fun h => (Finset.disjoint_left.mp hdis) (List.mem_toFinset.mpr h) hi
      rw [if_neg this, smul_eq_C_mul])
  obtain ⟨i, a', rfl⟩ := List.exists_cons_of_ne_nil ha
  have := key i (by simp)
  simp at this

theorem exceptional_ne_zero {n : Nat} {f : Nat → K[X]} (hf : LinearIndepOn K f {i | i < n}) (idx : List Nat) (hnd : idx.Nodup)
    (hlt : ∀ i ∈ idx, i < n) (e : K[X] × K[X]) (he : e ∈ allPairs (idx.map f)) : ∀ p ∈ exceptional e, p ≠ 0 := by
  obtain ⟨a, b, ha, hb, hsub, rfl⟩ := allPairs_blocks' f idx e he
  have hnd' := hsub.nodup hnd
  have hlt' : ∀ i ∈ a ++ b, i < n := fun i hi => hlt i (hsub.subset hi)
  intro p hp
  simp only [exceptional, List.mem_cons, List.not_mem_nil, or_false] at hp
  rcases hp with rfl | rfl | rfl | rfl
  · simpa using block_ne_zero hf a b ha hnd' hlt' 0
  · have hba : (b ++ a).Nodup := by
      rw [List.nodup_append_comm]; exact hnd'
    simpa using block_ne_zero hf b a hb hba (fun i hi => hlt' i (by simpa [or_comm] using hi)) 0
  · simpa [sub_eq_add_neg] using block_ne_zero hf a b ha hnd' hlt' (-1)
  · simpa using block_ne_zero hf a b ha hnd' hlt' 1

theorem sum_natDegree_le (f : Nat → K[X]) (D : Nat) (a : List Nat) (h : ∀ i ∈ a, (f i).natDegree ≤ D) : ((a.map f).sum).natDegree ≤ D := by
  induction a with
  | nil => simp
  | cons i a ih =>
    rw [List.map_cons, List.sum_cons]
    exact natDegree_add_le_of_degree_le (h i (by simp)) (ih fun j hj => h j (by simp [hj]))

theorem exceptional_degree (f : Nat → K[X]) (D : Nat) (idx : List Nat) (hD : ∀ i ∈ idx, (f i).natDegree ≤ D)
    (e : K[X] × K[X]) (he : e ∈ allPairs (idx.map f)) : ∀ p ∈ exceptional e, p.natDegree ≤ D := by
  obtain ⟨a, b, ha, hb, hsub, rfl⟩ := allPairs_blocks' f idx e he
  have h1 := sum_natDegree_le f D a fun i hi => hD i (hsub.subset (List.mem_append_left _ hi))
  have h2 := sum_natDegree_le f D b fun i hi => hD i (hsub.subset (List.mem_append_right _ hi))
  intro p hp
  simp only [exceptional, List.mem_cons, List.not_mem_nil, or_false] at hp
  rcases hp with rfl | rfl | rfl | rfl
  · exact h1
  · exact h2
  · simpa using natDegree_sub_le_of_le h1 h2
  · exact natDegree_add_le_of_degree_le h1 h2

theorem card_roots_le [Fintype K] [DecidableEq K] (D : Nat) (ps : List K[X]) (h0 : ∀ p ∈ ps, p ≠ 0) (hd : ∀ p ∈ ps, p.natDegree ≤ D) :
    (Finset.univ.filter (fun s : K => ∃ p ∈ ps, p.IsRoot s)).card ≤ ps.length * D := by
  induction ps with
  | nil => simp
  | cons p ps ih =>
    have ih := ih (fun p hp => h0 p (by simp [hp])) (fun p hp => hd p (by simp [hp]))
    have hsub : (Finset.univ.filter (fun s : K => ∃ q ∈ p :: ps, q.IsRoot s)) ⊆
        p.roots.toFinset ∪ Finset.univ.filter (fun s : K => ∃ q ∈ ps, q.IsRoot s) := by
      intro s hs
      obtain ⟨q, hq, hr⟩ := (Finset.mem_filter.mp hs).2
      rcases List.mem_cons.mp hq with rfl | hq
      · exact Finset.mem_union_left _ (by simp [h0 q (by simp)]; exact hr)
      · exact Finset.mem_union_right _ (by simp only [Finset.mem_filter, Finset.mem_univ, true_and]; exact ⟨q, hq, hr⟩)
    refine le_trans (Finset.card_le_card hsub) (le_trans (Finset.card_union_le _ _) ?_)
    have h1 : p.roots.toFinset.card ≤ D :=
      le_trans (Multiset.toFinset_card_le _) (le_trans (card_roots' p) (hd p (by simp)))
    rw [List.length_cons, Nat.add_mul, one_mul]
    omega

end independent

/-! ### Few secrets are bad -/

section secrets

theorem sum_bucket_length {α : Type} (c start : Nat) (es : List (Nat × α)) :
    ((List.range (2 ^ c)).map (fun d => (bucket c start d es).length)).sum ≤ es.length := by
  induction es with
  | nil => simp [bucket]
  | cons e es ih =>
    have hb : ∀ d, (bucket c start d (e :: es)).length = (if bucketOf c start e.1 = some d then 1 else 0) + (bucket c start d es).length := by
      intro d
      simp only [bucket, List.filter_cons]
      by_cases h : bucketOf c start e.1 = some d <;> simp [h]; omega
    simp only [hb]
    rw [List.sum_map_add, List.length_cons]
    have : ∀ n, ((List.range n).map (fun d => if bucketOf c start e.1 = some d then 1 else 0)).sum ≤ 1 ∧
        ((∀ d < n, bucketOf c start e.1 ≠ some d) → ((List.range n).map (fun d => if bucketOf c start e.1 = some d then 1 else 0)).sum = 0) := by
      intro n
      induction n with
      | zero => simp
      | succ n ih =>
        rw [List.range_succ, List.map_append, List.sum_append]
        by_cases h : bucketOf c start e.1 = some n
        · have h0 := ih.2 (fun d hd h' => by rw [h] at h'; simp at h'; omega)
          rw [h0]
          refine ⟨by simp [h], fun hall => absurd h (hall n (by omega))⟩
        · refine ⟨by simpa [h] using ih.1, fun hall => ?_⟩
          rw [ih.2 (fun d hd => hall d (by omega))]
          simp [h]
    have := (this (2 ^ c)).1
    omega

variable {F K : Type} [Field F] [DecidableEq F] [Field K] [Fintype K] [DecidableEq K] {W : WeierstrassCurve.Affine F}

/-- the polynomials of which the secret must not be a root, for a list of scalars -/
noncomputable def exceptionalAll (bits n : Nat) (f : Nat → K[X]) (scalars : List Nat) : List K[X] :=
  let es := nonzero scalars (List.range n)
  let c := windowBits es.length
  (List.range (windows bits c)).flatMap fun j => (List.range (2 ^ c)).flatMap fun d =>
    (allPairs ((bucket c (j * c) d es).map f)).flatMap exceptional

theorem bucket_idx {c start d n : Nat} {scalars : List Nat} :
    (bucket c start d (nonzero scalars (List.range n))).Sublist (List.range n) := by
  unfold bucket nonzero
  refine ((List.filter_sublist.trans List.filter_sublist).map Prod.snd).trans ?_
  have : ∀ (a b : List Nat), ((a.zip b).map Prod.snd).Sublist b := by
    intro a b
    induction a generalizing b with
    | nil => simp
    | cons x a ih =>
      cases b with
      | nil => simp
      | cons y b => simpa using ih b
  exact this _ _

omit [Fintype K] [DecidableEq K] in
theorem exceptionalAll_length (bits n : Nat) (f : Nat → K[X]) (scalars : List Nat) :
    (exceptionalAll bits n f scalars).length ≤
      windows bits (windowBits (nonzero scalars (List.range n)).length) * (4 * (nonzero scalars (List.range n)).length) := by
  unfold exceptionalAll
  generalize nonzero scalars (List.range n) = es
  dsimp only
  generalize windowBits es.length = c
  rw [List.length_flatMap]
  have : ∀ j ∈ List.range (windows bits c), ((List.range (2 ^ c)).flatMap fun d =>
      (allPairs ((bucket c (j * c) d es).map f)).flatMap exceptional).length ≤ 4 * es.length := by
    intro j _
    rw [List.length_flatMap]
    refine le_trans ?_ (Nat.mul_le_mul_left 4 (sum_bucket_length c (j * c) es))
    have h4 : ∀ l : List (K[X] × K[X]), (l.flatMap exceptional).length = 4 * l.length := by
      intro l
      induction l with
      | nil => rfl
      | cons e l ih => rw [List.flatMap_cons, List.length_append, ih]; simp [exceptional]; omega
    rw [← List.sum_map_mul_left]
    refine List.sum_le_sum fun d _ => ?_
    rw [h4]
    have := allPairs_length ((bucket c (j * c) d es).map f)
    rw [List.length_map] at this
    omega
  have hle := List.sum_le_card_nsmul ((List.range (windows bits c)).map (fun j => ((List.range (2 ^ c)).flatMap fun d =>
      (allPairs ((bucket c (j * c) d es).map f)).flatMap exceptional).length)) (4 * es.length) (by
    intro x hx
    obtain ⟨j, hj, rfl⟩ := List.mem_map.mp hx
    exact this j hj)
  simpa using hle

/-- the polynomial that the scalars are the coordinates of -/
noncomputable def committed (n : Nat) (f : Nat → K[X]) (scalars : List Nat) : K[X] :=
  (List.zipWith (fun (s : Nat) i => (s : K[X]) * f i) scalars (List.range n)).sum

omit [Fintype K] [DecidableEq K] in
theorem sumOfProducts_eq (n : Nat) (f : Nat → K[X]) (ψ : K →+ W.Point) (aff : Nat → Aff F) (s : K)
    (haff : ∀ i < n, point W (aff i) = ψ ((f i).eval s)) (scalars : List Nat) :
    sumOfProducts W scalars ((List.range n).map aff) = ψ ((committed n f scalars).eval s) := by
  have : ∀ (l : List Nat), (∀ i ∈ l, i < n) → ∀ scalars : List Nat, (List.zipWith (fun k a => k • point W a) scalars (l.map aff)).sum =
      ψ (((List.zipWith (fun (k : Nat) i => (k : K[X]) * f i) scalars l).sum).eval s) := by
    intro l
    induction l with
    | nil => intro _ scalars; simp
    | cons i l ih =>
      intro hl scalars
      cases scalars with
      | nil => simp
      | cons k ks =>
        rw [List.map_cons, List.zipWith_cons_cons, List.zipWith_cons_cons, List.sum_cons, List.sum_cons,
          ih (fun j hj => hl j (by simp [hj])) ks, haff i (hl i (by simp)), eval_add, map_add, eval_mul, eval_natCast,
          ← nsmul_eq_mul, map_nsmul]
  exact this _ (fun i hi => List.mem_range.mp hi) scalars

open Classical in
/-- C69, for polynomial commitments: fix the polynomial.  For bases made from linearly independent polynomials the commitment
is the polynomial at the secret, for all secrets but at most `4 · bits · n · D`. -/
theorem C69_few_bad_secrets (h1 : W.a₁ = 0) (h2 : W.a₂ = 0) (h3 : W.a₃ = 0) (add : W.Point → Aff F → W.Point) (hadd : MixedOk W add)
    (bits : Nat) (hbits : 0 < bits) (n : Nat) (hn : n ≤ 2 ^ 64) (f : Nat → K[X]) (hf : LinearIndepOn K f {i | i < n}) (D : Nat)
    (hD : ∀ i < n, (f i).natDegree ≤ D) (ψ : K →+ W.Point) (hψ : Function.Injective ψ) (aff : K → Nat → Aff F)
    (haff : ∀ s, ∀ i < n, Good W (aff s i) ∧ point W (aff s i) = ψ ((f i).eval s)) (scalars : List Nat)
    (hs : ∀ k ∈ scalars, k < 2 ^ bits) :
    (Finset.univ.filter (fun s : K => msmUnsafe add bits ((List.range n).map (aff s)) scalars ≠
      some (ψ ((committed n f scalars).eval s)))).card ≤ 4 * bits * n * D := by
  have hmem : ∀ p ∈ exceptionalAll bits n f scalars, p ≠ 0 ∧ p.natDegree ≤ D := by
    intro p hp
    unfold exceptionalAll at hp
    simp only [List.mem_flatMap, List.mem_range] at hp
    obtain ⟨j, -, d, -, e, he, hp⟩ := hp
    have hsub := @bucket_idx (windowBits (nonzero scalars (List.range n)).length)
      (j * windowBits (nonzero scalars (List.range n)).length) d n scalars
    exact ⟨exceptional_ne_zero hf _ (hsub.nodup List.nodup_range) (fun i hi => List.mem_range.mp (hsub.subset hi)) e he p hp,
      exceptional_degree f D _ (fun i hi => hD i (List.mem_range.mp (hsub.subset hi))) e he p hp⟩
  have hcard := card_roots_le D (exceptionalAll bits n f scalars) (fun p hp => (hmem p hp).1) (fun p hp => (hmem p hp).2)
  have hbound : (exceptionalAll bits n f scalars).length ≤ 4 * bits * n := by
    refine le_trans (exceptionalAll_length bits n f scalars) ?_
    have hw : windows bits (windowBits (nonzero scalars (List.range n)).length) ≤ bits := by
      have hc := windowBits_pos (nonzero scalars (List.range n)).length
      unfold windows
      rw [Nat.div_le_iff_le_mul_add_pred hc]
      have : bits * 1 ≤ bits * windowBits (nonzero scalars (List.range n)).length := Nat.mul_le_mul_left _ hc
      rw [Nat.mul_comm]
      omega
    have hl : (nonzero scalars (List.range n)).length ≤ n := by
      refine le_trans (List.length_filter_le _ _) ?_
      rw [List.length_zip, List.length_range]; omega
    calc _ ≤ bits * (4 * n) := Nat.mul_le_mul hw (Nat.mul_le_mul_left 4 hl)
      _ = 4 * bits * n := by ring
  refine le_trans (Finset.card_le_card ?_) (le_trans hcard (Nat.mul_le_mul_right D hbound))
  intro s hbad
  simp only [Finset.mem_filter, Finset.mem_univ, true_and] at hbad ⊢
  by_contra hroot
  apply hbad
  rw [← sumOfProducts_eq n f ψ (aff s) s (fun i hi => (haff s i hi).2) scalars]
  have hnz : nonzero scalars ((List.range n).map (aff s)) = (nonzero scalars (List.range n)).map (fun e => (e.1, aff s e.2)) := by
    unfold nonzero
    rw [List.zip_map_right, List.filter_map]
    rfl
  refine C69_msm_partial h1 h2 h3 add hadd bits hbits _ scalars ?_ hs (by simpa using hn) ?_
  · intro a ha
    obtain ⟨i, hi, rfl⟩ := List.mem_map.mp ha
    exact (haff s i (List.mem_range.mp hi)).1
  · rw [hnz, List.length_map]
    intro j hj d hd
    rw [bucket_map, List.map_map]
    have hpt : (bucket (windowBits (nonzero scalars (List.range n)).length) (j * windowBits (nonzero scalars (List.range n)).length) d
          (nonzero scalars (List.range n))).map (point W ∘ aff s) =
        ((bucket (windowBits (nonzero scalars (List.range n)).length) (j * windowBits (nonzero scalars (List.range n)).length) d
          (nonzero scalars (List.range n))).map f).map (ψ.comp (evalRingHom s : K[X] →+* K).toAddMonoidHom) := by
      rw [List.map_map]
      refine List.map_congr_left fun i hi => ?_
      exact (haff s i (List.mem_range.mp (bucket_idx.subset hi))).2
    rw [hpt]
    refine generic_of_allPairs _ ?_
    rw [allPairs_map]
    intro e he
    obtain ⟨e', he', rfl⟩ := List.mem_map.mp he
    have hno : ∀ p ∈ exceptional e', p.eval s ≠ 0 := by
      intro p hp h0
      refine hroot ⟨p, ?_, h0⟩
      unfold exceptionalAll
      simp only [List.mem_flatMap, List.mem_range]
      exact ⟨j, hj, d, hd, e', he', hp⟩
    simp only [exceptional, List.mem_cons, List.not_mem_nil, or_false, forall_eq_or_imp, forall_eq, eval_sub, eval_add] at hno
    obtain ⟨n1, n2, n3, n4⟩ := hno
    have hz : ∀ x, x ≠ 0 → ψ x ≠ 0 := fun x hx h => hx (hψ (by rw [h, map_zero]))
    refine ⟨hz _ n1, hz _ n2, fun h => n3 (sub_eq_zero.mpr (hψ h)), fun h => n4 ?_⟩
    have h' : ψ (e'.1.eval s) = -ψ (e'.2.eval s) := h
    rw [← map_neg] at h'
    rw [hψ h']
    exact neg_add_cancel _

omit [Fintype K] [DecidableEq K] in
/-- the monomials are independent -/
theorem monomials_indep (n : Nat) : LinearIndepOn K (fun i : Nat => (X : K[X]) ^ i) {i | i < n} := by
  rw [linearIndepOn_iff']
  intro t g _ h0 i hi
  have := congrArg (fun p => p.coeff i) h0
  simpa [finsetSum_coeff, coeff_X_pow, hi] using this

omit [Fintype K] [DecidableEq K] in
/-- the Lagrange polynomials of distinct nodes are independent -/
theorem lagrange_indep (n : Nat) (v : Nat → K) (hv : Set.InjOn v (Finset.range n)) :
    LinearIndepOn K (fun i => Lagrange.basis (Finset.range n) v i) {i | i < n} := by
  rw [linearIndepOn_iff']
  intro t g ht h0 i hi
  have hin : i ∈ Finset.range n := Finset.mem_range.mpr (ht hi)
  have := congrArg (fun p => p.eval (v i)) h0
  simp only [eval_finsetSum, eval_smul, smul_eq_mul, eval_zero] at this
  rw [Finset.sum_eq_single i] at this
  · rwa [Lagrange.eval_basis_self hv hin, mul_one] at this
  · intro j hj hne
    rw [Lagrange.eval_basis_of_ne hne hin, mul_zero]
  · exact fun h => absurd hi h

open Classical in
/-- C69, commitments by coefficients -/
theorem C69_commit_monomials (h1 : W.a₁ = 0) (h2 : W.a₂ = 0) (h3 : W.a₃ = 0) (add : W.Point → Aff F → W.Point) (hadd : MixedOk W add)
    (bits : Nat) (hbits : 0 < bits) (n : Nat) (hn : n ≤ 2 ^ 64) (ψ : K →+ W.Point) (hψ : Function.Injective ψ) (aff : K → Nat → Aff F)
    (haff : ∀ s, ∀ i < n, Good W (aff s i) ∧ point W (aff s i) = ψ (s ^ i)) (scalars : List Nat) (hs : ∀ k ∈ scalars, k < 2 ^ bits) :
    (Finset.univ.filter (fun s : K => msmUnsafe add bits ((List.range n).map (aff s)) scalars ≠
      some (ψ ((List.zipWith (fun (k : Nat) i => (k : K) * s ^ i) scalars (List.range n)).sum)))).card ≤ 4 * bits * n * n := by
  have := C69_few_bad_secrets h1 h2 h3 add hadd bits hbits n hn (fun i => (X : K[X]) ^ i) (monomials_indep n) n
    (fun i hi => by rw [natDegree_X_pow]; omega) ψ hψ aff (by simpa using haff) scalars hs
  have he : ∀ s : K, (committed n (fun i => (X : K[X]) ^ i) scalars).eval s =
      (List.zipWith (fun (k : Nat) i => (k : K) * s ^ i) scalars (List.range n)).sum := by
    intro s
    rw [committed, ← coe_evalRingHom, map_list_sum, List.map_zipWith]
    simp
  simpa only [he] using this

open Classical in
/-- C69, commitments by values on a domain -/
theorem C69_commit_lagrange (h1 : W.a₁ = 0) (h2 : W.a₂ = 0) (h3 : W.a₃ = 0) (add : W.Point → Aff F → W.Point) (hadd : MixedOk W add)
    (bits : Nat) (hbits : 0 < bits) (n : Nat) (hn : n ≤ 2 ^ 64) (v : Nat → K) (hv : Set.InjOn v (Finset.range n))
    (ψ : K →+ W.Point) (hψ : Function.Injective ψ) (aff : K → Nat → Aff F)
    (haff : ∀ s, ∀ i < n, Good W (aff s i) ∧ point W (aff s i) = ψ ((Lagrange.basis (Finset.range n) v i).eval s))
    (values : List Nat) (hlen : values.length = n) (hs : ∀ k ∈ values, k < 2 ^ bits) (p : K[X]) (hp : p.degree < n)
    (hval : ∀ i < n, p.eval (v i) = ((values[i]?).getD 0 : Nat)) :
    (Finset.univ.filter (fun s : K => msmUnsafe add bits ((List.range n).map (aff s)) values ≠
      some (ψ (p.eval s)))).card ≤ 4 * bits * n * n := by
  have := C69_few_bad_secrets h1 h2 h3 add hadd bits hbits n hn (fun i => Lagrange.basis (Finset.range n) v i)
    (lagrange_indep n v hv) n
    (fun i hi => by
      rw [natDegree_eq_of_degree_eq_some (Lagrange.degree_basis hv (Finset.mem_range.mpr hi))]
      simp) ψ hψ aff haff values hs
  have he : committed n (fun i => Lagrange.basis (Finset.range n) v i) values = p := by
    rw [Lagrange.eq_interpolate (f := p) hv (by simpa using hp), Lagrange.interpolate_apply, committed]
    have hl : List.zipWith (fun (s : Nat) i => (s : K[X]) * Lagrange.basis (Finset.range n) v i) values (List.range n) =
        (List.range n).map (fun i => C (p.eval (v i)) * Lagrange.basis (Finset.range n) v i) := by
      refine List.ext_getElem (by simp [hlen]) fun i hi1 hi2 => ?_
      have hi : i < n := by simpa using hi2
      rw [List.getElem_zipWith, List.getElem_map, List.getElem_range, hval i hi]
      have : values[i]? = some (values[i]'(by omega)) := List.getElem?_eq_getElem _
      rw [this]; simp
    rw [hl, ← List.sum_toFinset _ List.nodup_range]
    refine Finset.sum_congr (by ext; simp) fun _ _ => rfl
  simpa only [he] using this

end secrets

/-! ### Without the condition -/

section wrong
variable {F G : Type} [Field F] [AddCommGroup G]

theorem value_nil (add : G → Aff F → G) : value add [] = 0 := by
  rw [value, if_neg (by simp [threshold])]; rfl

theorem windowSum_ones (add : G → Aff F → G) (c start : Nat) (hc : c ≤ 64) (es : List (Nat × Aff F)) (h1 : ∀ e ∈ es, e.1 = 1) :
    windowSum add c es start = some (if start = 0 then value add (es.map (·.2)) else 0) := by
  have hb : ∀ d, bucket c start d es = if start = 0 ∧ d = 0 then es.map (·.2) else [] := by
    intro d
    unfold bucket
    by_cases h : start = 0 ∧ d = 0
    · rw [if_pos h, List.filter_eq_self.mpr]
      intro e he
      simp [bucketOf, h1 e he, h.1, h.2]
    · rw [if_neg h, List.filter_eq_nil_iff.mpr, List.map_nil]
      intro e he
      simp only [bucketOf, h1 e he, if_true, decide_eq_true_eq]
      intro h'
      split at h'
      · exact h ⟨by assumption, (by simpa using h' : 0 = d).symm⟩
      · simp at h'
  unfold windowSum
  rw [reduceBuckets_eq, buckets_eq c start hc, List.map_map]
  obtain ⟨m, hm⟩ : ∃ m, 2 ^ c = m + 1 := ⟨2 ^ c - 1, by have := Nat.one_le_two_pow (n := c); omega⟩
  rw [hm, List.range_succ_eq_map, List.map_cons, List.map_map]
  have hz : (List.range m).map ((value add ∘ fun d => bucket c start d es) ∘ Nat.succ) = (List.range m).map (fun _ => (0 : G)) := by
    refine List.map_congr_left fun d _ => ?_
    simp [hb, value_nil]
  rw [hz]
  have := running_range m (fun _ => (0 : G)) ((value add ∘ fun d => bucket c start d es) 0)
  simp only [this]
  simp only [smul_zero, List.map_const', List.sum_replicate, add_zero, Function.comp_apply, hb, and_true]
  by_cases h : start = 0
  · simp [h]
  · simp [h, value_nil]

/-- with all scalars one, the result is what `reduce_buckets` makes of the bases -/
theorem msm_ones (add : G → Aff F → G) (bits : Nat) (hbits : 0 < bits) (bases : List (Aff F)) (hlen : bases.length ≤ 2 ^ 64) :
    msmUnsafe add bits bases (List.replicate bases.length 1) = some (value add bases) := by
  have hes : ((List.replicate bases.length 1).zip bases).filter (fun e => decide (e.1 ≠ 0)) = bases.map (fun a => (1, a)) := by
    have : (List.replicate bases.length 1).zip bases = bases.map (fun a => (1, a)) := by
      clear hlen
      induction bases with
      | nil => rfl
      | cons a l ih => rw [List.length_cons, List.replicate_succ, List.zip_cons_cons, ih]; rfl
    rw [this, List.filter_eq_self]
    intro e he
    obtain ⟨a, _, rfl⟩ := List.mem_map.mp he
    simp
  unfold msmUnsafe
  simp only [hes, List.length_map]
  have hcpos := windowBits_pos bases.length
  have hcle := windowBits_le _ hlen
  generalize windowBits bases.length = c at *
  rw [mapM_some _ (fun start => if start = 0 then value add bases else 0)]
  swap
  · intro start _
    rw [windowSum_ones add c start hcle _ (by simp)]
    simp [List.map_map, Function.comp_def]
  have hw : 0 < (bits + c - 1) / c := Nat.div_pos (by omega) hcpos
  obtain ⟨m, hm⟩ := Nat.exists_eq_succ_of_ne_zero (by omega : (bits + c - 1) / c ≠ 0)
  rw [hm, Nat.succ_eq_add_one, List.range_succ_eq_map, List.map_cons, List.map_cons, List.map_map, List.map_map]
  have hz : (List.range m).map (((fun start => if start = 0 then value add bases else 0) ∘ fun j => j * c) ∘ Nat.succ) =
      (List.range m).map (fun _ => (0 : G)) := by
    refine List.map_congr_left fun j _ => ?_
    simp; omega
  simp only [Option.bind_eq_bind, Option.bind_some]
  have hz' := hz
  simp only [Function.comp_assoc] at hz' ⊢
  rw [hz']
  have hfold := fold_windows c m (fun _ => (0 : G))
  rw [hfold]
  simp

theorem halve_replicate {α : Type} (f : α → α → α) (a : α) (k : Nat) :
    halveWith f (List.replicate (2 * k) a) = List.replicate k (f a a) := by
  have hch : ∀ k, chunks2 (List.replicate (2 * k) a) = List.replicate k (a, a) := by
    intro k
    induction k with
    | zero => rfl
    | succ k ih => rw [Nat.mul_succ, List.replicate_succ, List.replicate_succ, chunks2, ih, List.replicate_succ]
  rw [halveWith, neighbours, List.length_replicate, if_neg (by omega), if_neg (by omega), hch]
  simp

theorem halve_alternating {α : Type} (f : α → α → α) (a b : α) (k : Nat) :
    halveWith f ((List.replicate k [a, b]).flatten) = List.replicate k (f a b) := by
  have hch : ∀ k, chunks2 ((List.replicate k [a, b]).flatten) = List.replicate k (a, b) := by
    intro k
    induction k with
    | zero => rfl
    | succ k ih => rw [List.replicate_succ, List.flatten_cons, List.cons_append, List.cons_append, List.nil_append, chunks2, ih, List.replicate_succ]
  have hlen : ((List.replicate k [a, b]).flatten).length % 2 = 0 := by simp
  rw [halveWith, neighbours, if_neg (by omega), if_neg (by omega), hch]
  simp

/-- C69, violated: thirty-two equal bases with scalar one.  After the first round the bucket holds sixteen copies of a point
that is not on the curve, and their sum by mixed addition is the result.  Every base other than those with abscissa zero will
do, the generator included. -/
theorem C69_equal_points [DecidableEq F] (W : WeierstrassCurve.Affine F) (h1 : W.a₁ = 0) (h2 : W.a₂ = 0) (h3 : W.a₃ = 0)
    (h4 : W.a₄ = 0) (hchar : (3 : F) ≠ 0) (add : G → Aff F → G) (bits : Nat) (hbits : 0 < bits) (a : Aff F) (hx : a.x ≠ 0)
    (hon : W.Nonsingular a.x a.y) :
    msmUnsafe add bits (List.replicate 32 a) (List.replicate 32 1) =
      some ((List.replicate 16 (⟨-2 * a.x, -a.y, false⟩ : Aff F)).foldl add 0) ∧
    ¬ Good W ⟨-2 * a.x, -a.y, false⟩ := by
  have hch : chord a a = ⟨-2 * a.x, -a.y, false⟩ := by
    simp only [chord, sub_self, zero_mul]
    congr 1 <;> ring
  constructor
  · have := msm_ones add bits hbits (List.replicate 32 a) (by simp)
    rw [List.length_replicate] at this
    rw [this, value, if_pos (by simp [threshold]), show (32 : Nat) = 2 * 16 from rfl, halve_replicate, hch, value,
      if_neg (by simp [threshold])]
  · rintro (h | h)
    · simp at h
    · have e1 := (WeierstrassCurve.Affine.equation_iff _ _).mp h.1
      have e2 := (WeierstrassCurve.Affine.equation_iff _ _).mp hon.1
      simp only [h1, h2, h3, h4] at e1 e2
      have : 3 * 3 * a.x ^ 3 = 0 := by linear_combination e1 - e2
      have h9 : (3 : F) * 3 ≠ 0 := mul_ne_zero hchar hchar
      exact hx (pow_eq_zero_iff (by norm_num) |>.mp ((mul_eq_zero.mp this).resolve_left h9))

end wrong

section opposite
variable {F : Type} [Field F] [DecidableEq F]

/-- the curve of BLS12-381, `y² = x³ + 4` -/
def curve4 (F : Type) [Field F] : WeierstrassCurve.Affine F := { a₁ := 0, a₂ := 0, a₃ := 0, a₄ := 0, a₆ := 4 }

omit [DecidableEq F] in
theorem curve4_nonsingular (hchar : (2 : F) ≠ 0) (y : F) (hy : y = 2 ∨ y = -2) : (curve4 F).Nonsingular 0 y := by
  have h4 : (2 : F) + 2 ≠ 0 := by rw [← two_mul]; exact mul_ne_zero hchar hchar
  rw [WeierstrassCurve.Affine.nonsingular_iff, WeierstrassCurve.Affine.equation_iff]
  rcases hy with rfl | rfl
  · refine ⟨by simp [curve4]; norm_num, Or.inr ?_⟩
    simp only [curve4]
    intro h
    apply h4
    linear_combination h
  · refine ⟨by simp [curve4]; norm_num, Or.inr ?_⟩
    simp only [curve4]
    intro h
    apply h4
    linear_combination -h

omit [DecidableEq F] in
theorem curve4_neg (hchar : (2 : F) ≠ 0) :
    (WeierstrassCurve.Affine.Point.some 0 (-2) (curve4_nonsingular hchar _ (.inr rfl)) : (curve4 F).Point) =
      -.some 0 2 (curve4_nonsingular hchar _ (.inl rfl)) := by
  rw [WeierstrassCurve.Affine.Point.neg_some]
  simp only [WeierstrassCurve.Affine.Point.some.injEq]
  exact ⟨trivial, by simp [WeierstrassCurve.Affine.negY, curve4]⟩

theorem curve4_three (hchar : (2 : F) ≠ 0) :
    (3 : Nat) • (WeierstrassCurve.Affine.Point.some 0 (-2) (curve4_nonsingular hchar _ (.inr rfl)) : (curve4 F).Point) = 0 := by
  have hp : (curve4 F).Nonsingular 0 2 := curve4_nonsingular hchar _ (.inl rfl)
  have hn : (curve4 F).Nonsingular 0 (-2) := curve4_nonsingular hchar _ (.inr rfl)
  have hneg := curve4_neg hchar
  have h4 : (2 : F) + 2 ≠ 0 := by rw [← two_mul]; exact mul_ne_zero hchar hchar
  have hy : (-2 : F) ≠ (curve4 F).negY 0 (-2) := by
    simp only [WeierstrassCurve.Affine.negY, curve4]
    intro h
    apply h4
    linear_combination -h
  have hdbl : (WeierstrassCurve.Affine.Point.some 0 (-2) hn : (curve4 F).Point) + .some 0 (-2) hn = .some 0 2 hp := by
    have hs : (curve4 F).slope 0 0 (-2) (-2) = 0 := by
      rw [WeierstrassCurve.Affine.slope_of_Y_ne rfl hy]
      simp [curve4]
    rw [WeierstrassCurve.Affine.Point.add_self_of_Y_ne hy]
    simp only [WeierstrassCurve.Affine.Point.some.injEq]
    rw [hs]
    constructor
    · simp [WeierstrassCurve.Affine.addX, curve4]
    · simp [WeierstrassCurve.Affine.addY, WeierstrassCurve.Affine.negY, WeierstrassCurve.Affine.negAddY,
        WeierstrassCurve.Affine.addX, curve4]
  have h3 : (3 : Nat) • (WeierstrassCurve.Affine.Point.some 0 (-2) hn : (curve4 F).Point) = 0 := by
    rw [succ_nsmul, two_nsmul, hdbl, hneg, add_neg_cancel]
  exact h3

/-- C69, violated with points that are on the curve: the points `(0, 2)` and `(0, -2)` are opposite, so the sum of sixteen
pairs of them is zero; the result is `(0, -2)` -/
theorem C69_opposite_points (hchar : (2 : F) ≠ 0) (add : (curve4 F).Point → Aff F → (curve4 F).Point) (hadd : MixedOk (curve4 F) add)
    (bits : Nat) (hbits : 0 < bits) :
    msmUnsafe add bits ((List.replicate 16 [⟨0, 2, false⟩, ⟨0, -2, false⟩]).flatten) (List.replicate 32 1) =
      some (.some 0 (-2) (curve4_nonsingular hchar _ (.inr rfl))) ∧
    sumOfProducts (curve4 F) (List.replicate 32 1) ((List.replicate 16 [⟨0, 2, false⟩, ⟨0, -2, false⟩]).flatten) = 0 := by
  have hp : (curve4 F).Nonsingular 0 2 := curve4_nonsingular hchar _ (.inl rfl)
  have hn : (curve4 F).Nonsingular 0 (-2) := curve4_nonsingular hchar _ (.inr rfl)
  have ep : point (curve4 F) ⟨0, 2, false⟩ = .some 0 2 hp := by rw [point, if_neg (by simp), dif_pos hp]
  have en : point (curve4 F) ⟨0, -2, false⟩ = .some 0 (-2) hn := by rw [point, if_neg (by simp), dif_pos hn]
  have hneg : (WeierstrassCurve.Affine.Point.some 0 (-2) hn : (curve4 F).Point) = -.some 0 2 hp := by
    rw [WeierstrassCurve.Affine.Point.neg_some]
    simp only [WeierstrassCurve.Affine.Point.some.injEq]
    exact ⟨trivial, by simp [WeierstrassCurve.Affine.negY, curve4]⟩
  have h3 := curve4_three hchar
  constructor
  · have hch : chord (⟨0, 2, false⟩ : Aff F) ⟨0, -2, false⟩ = ⟨0, -2, false⟩ := by
      simp [chord]
    have hl : ((List.replicate 16 [(⟨0, 2, false⟩ : Aff F), ⟨0, -2, false⟩]).flatten).length = 32 := by simp
    have := msm_ones add bits hbits ((List.replicate 16 [(⟨0, 2, false⟩ : Aff F), ⟨0, -2, false⟩]).flatten) (by rw [hl]; norm_num)
    rw [hl] at this
    rw [this, value, if_pos (by rw [hl]; simp [threshold]), halve_alternating, hch, value, if_neg (by simp [threshold]),
      foldl_mixed add hadd _ (by intro a ha; rw [List.eq_of_mem_replicate ha]; exact .inr hn), List.map_replicate,
      List.sum_replicate, en, zero_add, show (16 : Nat) = 3 * 5 + 1 from rfl, add_nsmul, mul_nsmul, h3]
    simp
  · have : ∀ k : Nat, sumOfProducts (curve4 F) (List.replicate (2 * k) 1)
        ((List.replicate k [⟨0, 2, false⟩, ⟨0, -2, false⟩]).flatten) = 0 := by
      intro k
      induction k with
      | zero => rfl
      | succ k ih =>
        unfold sumOfProducts at ih ⊢
        rw [Nat.mul_succ, List.replicate_succ, List.replicate_succ, List.replicate_succ (n := k), List.flatten_cons, List.cons_append,
          List.cons_append, List.nil_append, List.zipWith_cons_cons, List.zipWith_cons_cons, List.sum_cons, List.sum_cons, ih,
          ep, en, hneg]
        simp
    exact this 16

end opposite

/-! ### the hypotheses are met -/

/-- the curve `y² = x³ + 7` over a small field -/
def toyCurve : WeierstrassCurve.Affine (ZMod 101) := { a₁ := 0, a₂ := 0, a₃ := 0, a₄ := 0, a₆ := 7 }

instance : Fact (Nat.Prime 101) := ⟨by norm_num⟩

theorem toyCurve_at (x y : ZMod 101) (he : y ^ 2 = x ^ 3 + 7) (hy : y ≠ -y) : toyCurve.Nonsingular x y := by
  rw [WeierstrassCurve.Affine.nonsingular_iff, WeierstrassCurve.Affine.equation_iff]
  refine ⟨by simp [toyCurve, he], Or.inr ?_⟩
  simpa [toyCurve] using hy

/-- group law as mixed addition -/
noncomputable def lawful {F : Type} [Field F] [DecidableEq F] (W : WeierstrassCurve.Affine F) (g : W.Point) (a : Aff F) : W.Point :=
  g + point W a

theorem lawful_ok {F : Type} [Field F] [DecidableEq F] (W : WeierstrassCurve.Affine F) : MixedOk W (lawful W) := fun _ _ _ => rfl

/-- eighteen bases in the same bucket, so that a round of affine additions takes place -/
example : msmUnsafe (lawful toyCurve) 255 ((List.replicate 9 [⟨4, 24, false⟩, ⟨5, 43, false⟩]).flatten) (List.replicate 18 6) =
    some (sumOfProducts toyCurve (List.replicate 18 6) ((List.replicate 9 [⟨4, 24, false⟩, ⟨5, 43, false⟩]).flatten)) := by
  have hp : toyCurve.Nonsingular 4 24 := toyCurve_at 4 24 (by decide) (by decide)
  have hq : toyCurve.Nonsingular 5 43 := toyCurve_at 5 43 (by decide) (by decide)
  have ep : point toyCurve ⟨4, 24, false⟩ = .some 4 24 hp := by rw [point, if_neg (by simp), dif_pos hp]
  have eq : point toyCurve ⟨5, 43, false⟩ = .some 5 43 hq := by rw [point, if_neg (by simp), dif_pos hq]
  refine C69_msm_partial rfl rfl rfl _ (lawful_ok toyCurve) 255 (by norm_num) _ _ ?_ ?_ (by simp) ?_
  · intro a ha
    obtain ⟨l, hl, hal⟩ := List.mem_flatten.mp ha
    rw [List.eq_of_mem_replicate hl] at hal
    have : a = ⟨4, 24, false⟩ ∨ a = ⟨5, 43, false⟩ := by simpa using hal
    rcases this with rfl | rfl
    · exact .inr hp
    · exact .inr hq
  · intro s hs
    rw [List.eq_of_mem_replicate hs]; norm_num
  · intro j _ d _
    have hbk : bucket 3 (j * 3) d (nonzero (List.replicate 18 6)
          ((List.replicate 9 [(⟨4, 24, false⟩ : Aff (ZMod 101)), ⟨5, 43, false⟩]).flatten)) =
        if bucketOf 3 (j * 3) 6 = some d then (List.replicate 9 [(⟨4, 24, false⟩ : Aff (ZMod 101)), ⟨5, 43, false⟩]).flatten else [] := by
      by_cases h : bucketOf 3 (j * 3) 6 = some d <;> simp [nonzero, bucket, h, List.replicate]
    have hc : windowBits (nonzero (List.replicate 18 6)
          ((List.replicate 9 [(⟨4, 24, false⟩ : Aff (ZMod 101)), ⟨5, 43, false⟩]).flatten)).length = 3 := by
      simp [nonzero, windowBits, List.replicate]
    rw [hc, hbk]
    split
    · refine generic_of_allPairs _ ?_
      have hm : ((List.replicate 9 [(⟨4, 24, false⟩ : Aff (ZMod 101)), ⟨5, 43, false⟩]).flatten).map (point toyCurve) =
          (List.replicate 9 [point toyCurve ⟨4, 24, false⟩, point toyCurve ⟨5, 43, false⟩]).flatten := by
        simp [List.replicate]
      rw [hm, ep, eq, allPairs, if_pos (by simp [threshold]), halve_alternating, allPairs, if_neg (by simp [threshold]), List.append_nil]
      intro e he
      have : e = (.some 4 24 hp, .some 5 43 hq) := by
        simpa [neighbours, chunks2, List.replicate] using he
      subst this
      refine ⟨by simp, by simp, ?_, ?_⟩
      · simp only [ne_eq, WeierstrassCurve.Affine.Point.some.injEq, not_and]
        exact fun h => absurd h (by decide)
      · rw [WeierstrassCurve.Affine.Point.neg_some]
        simp only [ne_eq, WeierstrassCurve.Affine.Point.some.injEq, not_and]
        exact fun h => absurd h (by decide)
    · exact generic_of_small _ (by simp)

/-- sixteen scalars and more bases -/
example : msmUnsafe (lawful toyCurve) 255 (List.replicate 20 ⟨4, 24, false⟩) (List.replicate 16 6 ++ List.replicate 4 0) =
    some (sumOfProducts toyCurve (List.replicate 16 6 ++ List.replicate 4 0) (List.replicate 20 ⟨4, 24, false⟩)) :=
  C69_msm_small rfl rfl rfl _ (lawful_ok toyCurve) 255 (by norm_num) _ _
    (fun a ha => by rw [List.eq_of_mem_replicate ha]; exact .inr (toyCurve_at 4 24 (by decide) (by decide)))
    (fun s hs => by
      rcases List.mem_append.mp hs with h | h <;> rw [List.eq_of_mem_replicate h] <;> norm_num)
    (by simp) (by simp)

example : ¬ Good toyCurve ⟨-2 * 4, -24, false⟩ :=
  (C69_equal_points (G := Int) toyCurve rfl rfl rfl rfl (by decide) (fun g _ => g) 255 (by norm_num) ⟨4, 24, false⟩ (by decide)
    (toyCurve_at 4 24 (by decide) (by decide))).2

example : msmUnsafe (lawful (curve4 (ZMod 101))) 255 ((List.replicate 16 [⟨0, 2, false⟩, ⟨0, -2, false⟩]).flatten) (List.replicate 32 1) ≠
    some (sumOfProducts (curve4 (ZMod 101)) (List.replicate 32 1) ((List.replicate 16 [⟨0, 2, false⟩, ⟨0, -2, false⟩]).flatten)) := by
  have := C69_opposite_points (F := ZMod 101) (by decide) _ (lawful_ok (curve4 (ZMod 101))) 255 (by norm_num)
  rw [this.1, this.2]
  simp

/-- the multiples of `(0, -2)` -/
noncomputable def toyPsi : ZMod 3 →+ (curve4 (ZMod 101)).Point :=
  ZMod.lift 3 ⟨zmultiplesHom _ (WeierstrassCurve.Affine.Point.some 0 (-2) (curve4_nonsingular (by decide) _ (.inr rfl))), by
    rw [zmultiplesHom_apply]
    exact_mod_cast curve4_three (F := ZMod 101) (by decide)⟩

theorem toyPsi_one : toyPsi 1 = .some 0 (-2) (curve4_nonsingular (by decide) _ (.inr rfl)) := by
  have := ZMod.lift_coe 3 (⟨zmultiplesHom _ (WeierstrassCurve.Affine.Point.some 0 (-2) (curve4_nonsingular (by decide) _ (.inr rfl))), by
    rw [zmultiplesHom_apply]
    exact_mod_cast curve4_three (F := ZMod 101) (by decide)⟩ :
    { f : ℤ →+ (curve4 (ZMod 101)).Point // f (3 : Nat) = 0 }) 1
  simpa [toyPsi] using this

theorem toyPsi_two : toyPsi 2 = .some 0 2 (curve4_nonsingular (by decide) _ (.inl rfl)) := by
  have h : (2 : ZMod 3) = -1 := by decide
  rw [h, map_neg, toyPsi_one, curve4_neg (by decide), neg_neg]

theorem toyPsi_injective : Function.Injective toyPsi := by
  rw [injective_iff_map_eq_zero]
  intro a ha
  match a with
  | 0 => rfl
  | 1 => rw [toyPsi_one] at ha; simp at ha
  | 2 => rw [toyPsi_two] at ha; simp at ha

/-- the affine form of a multiple -/
def toyAff (a : ZMod 3) : Aff (ZMod 101) := if a = 0 then ⟨0, 1, true⟩ else if a = 1 then ⟨0, -2, false⟩ else ⟨0, 2, false⟩

instance : Fact (Nat.Prime 3) := ⟨by norm_num⟩

open Classical in
/-- the hypotheses about bases and secrets can be met; the numbers are too small here for the bound to be of interest -/
example (scalars : List Nat) (hs : ∀ k ∈ scalars, k < 2 ^ 255) :
    (Finset.univ.filter (fun s : ZMod 3 => msmUnsafe (lawful (curve4 (ZMod 101))) 255 ((List.range 40).map (fun i => toyAff (s ^ i))) scalars ≠
      some (toyPsi ((List.zipWith (fun (k : Nat) i => (k : ZMod 3) * s ^ i) scalars (List.range 40)).sum)))).card ≤ 4 * 255 * 40 * 40 := by
  refine C69_commit_monomials rfl rfl rfl _ (lawful_ok _) 255 (by norm_num) 40 (by norm_num) toyPsi toyPsi_injective
    (fun s i => toyAff (s ^ i)) ?_ scalars hs
  intro s i _
  generalize s ^ i = a
  match a with
  | 0 => exact ⟨.inl rfl, by rw [map_zero]; rfl⟩
  | 1 =>
    have hn : (curve4 (ZMod 101)).Nonsingular 0 (-2) := curve4_nonsingular (by decide) _ (.inr rfl)
    exact ⟨.inr hn, by
      rw [toyPsi_one]
      show point _ ⟨0, -2, false⟩ = _
      rw [point, if_neg (by simp), dif_pos hn]⟩
  | 2 =>
    have hn : (curve4 (ZMod 101)).Nonsingular 0 2 := curve4_nonsingular (by decide) _ (.inl rfl)
    exact ⟨.inr hn, by
      rw [toyPsi_two]
      show point _ ⟨0, 2, false⟩ = _
      rw [point, if_neg (by simp), dif_pos hn]⟩

end Verif.Msm
