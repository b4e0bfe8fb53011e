import Mathlib.LinearAlgebra.Lagrange
import Mathlib.Tactic.IntervalCases
import Verif.Plonk.Sat
import Verif.Plonk.Perm
import Verif.Snark.Helpers

/-!
C60, continued: evaluation of the public inputs, the permutation accumulator, and the linearisation of prover and verifier.
-/

namespace Verif.Snark

open Verif.Poly Verif.Plonk Polynomial
open Verif.AnonCreds (Pairing)

variable {F G1 G2 Gt : Type} [Field F] [DecidableEq F] [AddCommGroup G1] [Module F G1] [AddCommGroup G2] [Module F G2]
  [AddCommGroup Gt] [Module F Gt] [DecidableEq Gt]

/-! ### The first Lagrange polynomial -/

/-- C60: away from `1` the two values are `ζⁿ - 1` and `1 + ζ + … + ζⁿ⁻¹`, and at `1` the inverse panics. -/
theorem C60_first_lagrange (zeta : F) (n : Nat) :
    firstLagrange zeta n = if zeta = 1 then .panic else .ok (zeta ^ n - 1, ∑ i ∈ Finset.range n, zeta ^ i) := by
  unfold firstLagrange invUnwrap
  by_cases h : zeta = 1
  · rw [if_pos h, if_pos (by rw [h, sub_self])]; rfl
  · have h0 : zeta - 1 ≠ 0 := sub_ne_zero.2 h
    rw [if_neg h, if_neg h0]
    show Res.ok _ = _
    rw [← geom_sum_mul zeta n, mul_assoc, mul_inv_cancel₀ h0, mul_one]

/-! ### Lagrange constants and public inputs -/

omit [DecidableEq F] in
theorem pow_injOn {root : F} {n : Nat} (hr : IsPrimitiveRoot root n) :
    Set.InjOn (fun i => root ^ i) (Finset.range n : Finset Nat) := by
  intro a ha b hb hab
  exact hr.pow_inj (by simpa using ha) (by simpa using hb) hab

omit [DecidableEq F] in
/-- the polynomial that vanishes at the powers of the root -/
theorem nodal_roots {root : F} {n : Nat} (hn : 0 < n) (hr : IsPrimitiveRoot root n) :
    Lagrange.nodal (Finset.range n) (fun i => root ^ i) = X ^ n - 1 := by
  have hmonic : (X ^ n - 1 : F[X]).Monic := monic_X_pow_sub_C (1 : F) (by omega)
  have hdeg : (X ^ n - 1 : F[X]).degree = n := by
    have := degree_X_pow_sub_C hn (1 : F)
    simpa using this
  have hsub : (Lagrange.nodal (Finset.range n) (fun i => root ^ i) - (X ^ n - 1)).degree < (n : WithBot Nat) := by
    have h1 : (Lagrange.nodal (Finset.range n) (fun i => root ^ i)).degree = n := by rw [Lagrange.degree_nodal, Finset.card_range]
    have h2 := degree_sub_lt (p := Lagrange.nodal (Finset.range n) (fun i => root ^ i)) (q := X ^ n - 1) (by rw [h1, hdeg])
      Lagrange.nodal_ne_zero (by rw [Lagrange.nodal_monic.leadingCoeff, hmonic.leadingCoeff])
    rwa [h1] at h2
  refine sub_eq_zero.1 (eq_of_degree_sub_lt_of_eval_index_eq (s := Finset.range n) (v := fun i => root ^ i) (pow_injOn hr) ?_ ?_)
  · rw [sub_zero, Finset.card_range]; exact hsub
  · intro i hi
    rw [eval_sub, Lagrange.eval_nodal_at_node hi, eval_zero]
    simp only [eval_sub, eval_pow, eval_X, eval_one]
    rw [← pow_mul, mul_comm, pow_mul, hr.pow_eq_one, one_pow, sub_self, sub_zero]

omit [DecidableEq F] in
theorem foldl_skip (f : Nat → F) (b n : Nat) (a : F) :
    (List.range n).foldl (fun acc i => if i = b then acc else acc * f i) a = a * ∏ i ∈ (Finset.range n).erase b, f i := by
  induction n with
  | zero => simp
  | succ n ih =>
    rw [List.range_succ, List.foldl_append, ih, List.foldl_cons, List.foldl_nil, Finset.range_add_one]
    by_cases h : n = b
    · subst h
      rw [if_pos rfl, Finset.erase_insert (by simp), Finset.erase_eq_of_notMem (by simp)]
    · rw [if_neg h, Finset.erase_insert_of_ne h, Finset.prod_insert (by simp)]
      ring

/-- C60: `compute_lagrange_constant` is the barycentric weight of the chosen root of unity. -/
theorem C60_lagrange_constant (root : F) (n b : Nat) (hb : b < n) (hr : IsPrimitiveRoot root n) :
    lagrangeConstant ((List.range n).map fun i => root ^ i) b =
      .ok (∏ i ∈ (Finset.range n).erase b, (root ^ b - root ^ i))⁻¹ := by
  unfold lagrangeConstant
  rw [foldlM_ok _ (fun acc i => if i = b then acc else acc * (root ^ b - root ^ i))]
  · rw [Res.bind_ok, List.length_map, List.length_range, foldl_skip, one_mul, invUnwrap, if_neg]
    rw [Finset.prod_eq_zero_iff]
    rintro ⟨i, hi, h⟩
    rw [Finset.mem_erase, Finset.mem_range] at hi
    exact hi.1 (hr.pow_inj hi.2 hb (sub_eq_zero.1 h).symm)
  · intro i hi acc
    rw [List.length_map, List.length_range, List.mem_range] at hi
    by_cases h : i = b
    · rw [if_pos h, if_pos h]
    · rw [if_neg h, if_neg h, index_range _ hb, Res.bind_ok, index_range _ hi, Res.bind_ok]; rfl

omit [DecidableEq F] in
theorem piAt_none (l : List (Nat × F)) (i : Nat) (a : F) (h : ∀ e ∈ l, e.1 ≠ i) :
    l.foldl (fun acc e => if e.1 = i then e.2 else acc) a = a := by
  induction l generalizing a with
  | nil => rfl
  | cons e l ih => rw [List.foldl_cons, if_neg (h e (by simp)), ih _ (fun e he => h e (by simp [he]))]

omit [DecidableEq F] in
theorem piAt_cons (c : Nat) (cons : List Nat) (v : F) (pi : List F) (hc : c ∉ cons) (i : Nat) :
    Spec.piAt (c :: cons) (v :: pi) i = (if c = i then v else 0) + Spec.piAt cons pi i := by
  unfold Spec.piAt
  rw [List.zip_cons_cons, List.foldl_cons]
  by_cases h : c = i
  · rw [if_pos h]
    have hn : ∀ e ∈ cons.zip pi, e.1 ≠ i := by
      intro e he h'
      exact hc (h ▸ h' ▸ (List.of_mem_zip he).1)
    rw [piAt_none _ _ _ hn, piAt_none _ _ _ hn, add_zero]
  · rw [if_neg h, zero_add]

omit [DecidableEq F] in
/-- a sum over all rows weighted by the public inputs -/
theorem piAt_sum (h : Nat → F) (n : Nat) : ∀ (cons : List Nat) (pi : List F), cons.Nodup → (∀ c ∈ cons, c < n) →
    ∑ i ∈ Finset.range n, h i * Spec.piAt cons pi i = ((cons.zip pi).map fun e => h e.1 * e.2).sum
  | [], pi, _, _ => by simp [Spec.piAt]
  | c :: cons, [], _, _ => by simp [Spec.piAt]
  | c :: cons, v :: pi, hd, hlt => by
    rw [List.nodup_cons] at hd
    simp only [piAt_cons c cons v pi hd.1, mul_add, Finset.sum_add_distrib]
    rw [piAt_sum h n cons pi hd.2 (fun c hc => hlt c (by simp [hc]))]
    simp [hlt c (by simp)]

theorem evalPiLoop_eq (root zeta : F) (W : Nat → F) (hne : ∀ c : Nat, zeta - root ^ c ≠ 0) : ∀ (cons : List Nat) (pi : List F) (acc : F),
    evalPiLoop root zeta cons pi (cons.map W) acc =
      .ok (acc + ((cons.zip pi).map fun e => W e.1 * (zeta - root ^ e.1)⁻¹ * e.2).sum)
  | [], pi, acc => by simp [evalPiLoop]
  | c :: cons, [], acc => by simp [evalPiLoop]
  | c :: cons, v :: pi, acc => by
    rw [List.map_cons, evalPiLoop, invUnwrap, if_neg (hne c), Res.bind_ok, evalPiLoop_eq root zeta W hne cons pi]
    simp [add_assoc]

/-- C60: the verifier's value of the public inputs is the value at `ζ` of the polynomial of degree below `n` that takes, at the
power of the root that belongs to each public row, the public input, and zero at the other powers.  Missing public inputs count
as zero and superfluous ones are not looked at. -/
theorem C60_eval_pi (vk : VK G1 F) (n : Nat) (hn : 0 < n) (hr : IsPrimitiveRoot vk.root n) (hd : vk.pubCons.Nodup)
    (hlt : ∀ c ∈ vk.pubCons, c < n)
    (hlag : vk.pubCons.mapM (lagrangeConstant ((List.range n).map fun i => vk.root ^ i)) = .ok vk.lagrange) (pi : List F)
    (zeta : F) (hz : zeta ^ n ≠ 1) (f : F[X]) (hf : f.degree < n)
    (hfe : ∀ i < n, f.eval (vk.root ^ i) = Spec.piAt vk.pubCons pi i) :
    evalPi vk pi (zeta ^ n - 1) zeta = .ok (f.eval zeta) := by
  have hne : ∀ c : Nat, zeta - vk.root ^ c ≠ 0 := by
    intro c h
    apply hz
    rw [sub_eq_zero.1 h, ← pow_mul, mul_comm, pow_mul, hr.pow_eq_one, one_pow]
  set W : Nat → F := fun b => (∏ i ∈ (Finset.range n).erase b, (vk.root ^ b - vk.root ^ i))⁻¹ with hW
  rw [mapM_ok _ W _ (fun c hc => C60_lagrange_constant vk.root n c (hlt c hc) hr)] at hlag
  injection hlag with hlag
  unfold evalPi
  rw [← hlag, evalPiLoop_eq vk.root zeta W hne, Res.bind_ok]
  show Res.ok _ = _
  refine congrArg Res.ok ?_
  have hf' : f = Lagrange.interpolate (Finset.range n) (fun i => vk.root ^ i) (Spec.piAt vk.pubCons pi) :=
    Lagrange.eq_interpolate_of_eval_eq _ (pow_injOn hr) (by rw [Finset.card_range]; exact hf)
      (fun i hi => hfe i (by simpa using hi))
  rw [hf', Lagrange.eval_interpolate_not_at_node _ (fun i _ h => hne i (sub_eq_zero.2 h)), nodal_roots hn hr]
  simp only [eval_sub, eval_pow, eval_X, eval_one]
  rw [zero_add, mul_comm, ← piAt_sum (fun i => W i * (zeta - vk.root ^ i)⁻¹) n vk.pubCons pi hd hlt]
  refine congrArg _ (Finset.sum_congr rfl fun i _ => ?_)
  rw [hW, Lagrange.nodalWeight, Finset.prod_inv_distrib]

theorem evalPiTerms_eq (root point : F) : ∀ (cons : List Nat) (pi lag : List F) (acc : F),
    evalPiLoop root point cons pi lag acc = (evalPiTerms root point cons pi lag).bind fun l => .ok (acc + l.sum)
  | [], pi, lag, acc => by simp [evalPiLoop, evalPiTerms, Res.bind]
  | c :: cons, [], lag, acc => by simp [evalPiLoop, evalPiTerms, Res.bind]
  | c :: cons, v :: pi, [], acc => by simp [evalPiLoop, evalPiTerms, Res.bind]
  | c :: cons, v :: pi, l :: lag, acc => by
    rw [evalPiLoop, evalPiTerms]
    cases invUnwrap (point - root ^ c) with
    | ok inv =>
      rw [Res.bind_ok, Res.bind_ok, evalPiTerms_eq root point cons pi lag]
      cases evalPiTerms root point cons pi lag with
      | ok t => simp [Res.bind, add_assoc]
      | err => rfl
      | panic => rfl
    | err => rfl
    | panic => rfl

/-- C60: the sequential and the parallel version of `eval_pi_poly` agree on everything, panics included. -/
theorem C60_parallel_eval_pi (vk : VK G1 F) (pi : List F) (zh point : F) : evalPiParallel vk pi zh point = evalPi vk pi zh point := by
  unfold evalPi evalPiParallel
  rw [evalPiTerms_eq]
  cases evalPiTerms vk.root point vk.pubCons pi vk.lagrange with
  | ok t => simp [Res.bind]
  | err => rfl
  | panic => rfl

/-! ### The permutation accumulator -/

/-- position `v` of the concatenated wiring columns as a field element: the representative of the column times the power of the
root of the row -/
def place (root : F) (κ : Nat → F) (n v : Nat) : F := κ (v / n) * root ^ (v % n)

omit [DecidableEq F] in
theorem find_column (κ : Nat → F) (n v : Nat) (hn : 0 < n) (hv : v < 5 * n) :
    (((List.range 5).map κ).zipIdx.tail.find? (fun e => decide (v < (e.2 + 1) * n ∧ e.2 * n ≤ v))) =
      if v < n then none else some (κ (v / n), v / n) := by
  have hdm := Nat.div_add_mod v n
  have hm := Nat.mod_lt v hn
  have hq : v / n < 5 := Nat.div_lt_of_lt_mul (by rw [mul_comm]; exact hv)
  generalize v / n = q at hdm hq
  generalize v % n = r at hdm hm
  subst hdm
  have hl : ((List.range 5).map κ).zipIdx.tail = [(κ 1, 1), (κ 2, 2), (κ 3, 3), (κ 4, 4)] := by
    simp [List.range_succ, List.zipIdx]
  rw [hl]
  simp only [List.find?]
  have e : ∀ j : Nat, (n * q + r < (j + 1) * n ∧ j * n ≤ n * q + r) ↔ j = q := by
    intro j
    constructor
    · rintro ⟨h1, h2⟩
      have : q < j + 1 := by
        by_contra hc
        have := Nat.mul_le_mul_right n (show j + 1 ≤ q by omega)
        rw [mul_comm n q] at h1; omega
      have : j < q + 1 := by
        by_contra hc
        have := Nat.mul_le_mul_right n (show q + 1 ≤ j by omega)
        rw [add_mul] at this; rw [mul_comm n q] at h2; omega
      omega
    · rintro rfl
      rw [mul_comm n j, add_mul]; omega
  simp only [e]
  have e0 : n * q + r < n ↔ q = 0 := by
    constructor
    · intro h
      by_contra hc
      have := Nat.mul_le_mul_left n (show 1 ≤ q by omega)
      omega
    · rintro rfl; omega
  simp only [e0]
  interval_cases q <;> simp

omit [DecidableEq F] in
/-- the closure of `z_poly` gives the place in the group -/
theorem permPoint_eq (root : F) (κ : Nat → F) (n v : Nat) (hn : 0 < n) (hv : v < 5 * n) :
    permPoint v n ((List.range n).map fun i => root ^ i) ((List.range 5).map κ) = .ok (place root κ n v) := by
  unfold permPoint
  rw [find_column κ n v hn hv]
  by_cases h : v < n
  · rw [if_pos h]
    simp only
    rw [index_range _ (by omega), Res.bind_ok, index_range _ h, Res.bind_ok, place, Nat.div_eq_of_lt h, Nat.mod_eq_of_lt h]
    rfl
  · rw [if_neg h]
    simp only
    rw [index_range _ (Nat.mod_lt v hn), Res.bind_ok]
    rfl

omit [DecidableEq F] in
/-- `encode_perm_to_group` gives the same place, if the first representative is one -/
theorem encodePerm_eq (root : F) (κ : Nat → F) (hκ : κ 0 = 1) (n v : Nat) (hn : 0 < n) (hv : v < 5 * n) :
    encodePerm ((List.range n).map fun i => root ^ i) ((List.range 5).map κ) v = .ok (place root κ n v) := by
  unfold encodePerm
  simp only [List.length_map, List.length_range]
  rw [find_column κ n v hn hv]
  by_cases h : v < n
  · rw [if_pos h]
    simp only
    rw [index_range _ (Nat.mod_lt v hn), place, Nat.div_eq_of_lt h, hκ, one_mul]
  · rw [if_neg h]
    simp only
    rw [index_range _ (Nat.mod_lt v hn), Res.bind_ok]
    rfl

/-- numerator of row `i` -/
def zNum (root : F) (κ W : Nat → F) (n : Nat) (beta gamma : F) (i : Nat) : F :=
  ∏ j ∈ Finset.range 5, (W (j * n + i) + gamma + beta * (κ j * root ^ i))

/-- denominator of row `i` -/
def zDen (root : F) (κ W : Nat → F) (σ : Nat → Nat) (n : Nat) (beta gamma : F) (i : Nat) : F :=
  ∏ j ∈ Finset.range 5, (W (j * n + i) + gamma + beta * place root κ n (σ (j * n + i)))

omit [DecidableEq F] in
theorem zStep_eq (root : F) (κ W : Nat → F) (σ : Nat → Nat) (n : Nat) (beta gamma : F) (i : Nat) (hi : i < n)
    (hσ : ∀ v < 5 * n, σ v < 5 * n) :
    zStep n ((List.range (5 * n)).map σ) ((List.range (5 * n)).map W) ((List.range n).map fun i => root ^ i)
      ((List.range 5).map κ) beta gamma i = .ok (zNum root κ W n beta gamma i, zDen root κ W σ n beta gamma i) := by
  unfold zStep
  rw [foldlM_ok _ (fun (nd : F × F) j => (nd.1 * (W (j * n + i) + gamma + beta * (κ j * root ^ i)),
    nd.2 * (W (j * n + i) + gamma + beta * place root κ n (σ (j * n + i)))))]
  · rw [zNum, zDen]
    simp [List.range_succ, Finset.prod_range_succ]
  · intro j hj nd
    have hj : j < 5 := List.mem_range.1 hj
    have hlt : j * n + i < 5 * n := by
      have := Nat.mul_le_mul_right n (show j + 1 ≤ 5 by omega)
      rw [add_mul] at this; omega
    rw [index_range _ hj, Res.bind_ok, index_range _ hi, Res.bind_ok, index_range _ hlt, Res.bind_ok, index_range _ hlt,
      Res.bind_ok, permPoint_eq root κ n _ (by omega) (hσ _ hlt), Res.bind_ok]
    rfl

theorem zLoop_eq (num den : Nat → F) (step : Nat → Res (F × F)) (n : Nat) (hstep : ∀ i < n, step i = .ok (num i, den i))
    (hden : ∀ i < n, den i ≠ 0) :
    ∃ vals : List F, (List.range n).foldlM (fun (st : F × List F) i => do
        let nd ← step i
        let inv ← invUnwrap nd.2
        let prev := st.1 * (nd.1 * inv)
        pure (prev, st.2 ++ [prev])) (1, [1]) = .ok (∏ i ∈ Finset.range n, num i * (den i)⁻¹, vals) ∧
      vals = (List.range (n + 1)).map fun k => ∏ i ∈ Finset.range k, num i * (den i)⁻¹ := by
  induction n with
  | zero => exact ⟨[1], by simp, by simp⟩
  | succ n ih =>
    obtain ⟨vals, h1, h2⟩ := ih (fun i hi => hstep i (by omega)) (fun i hi => hden i (by omega))
    refine ⟨_, ?_, rfl⟩
    rw [List.range_succ, List.foldlM_append, h1, Res.bind_ok, List.foldlM_cons, hstep n (by omega), Res.bind_ok, invUnwrap,
      if_neg (hden n (by omega)), Res.bind_ok, List.range_succ (n := n + 1), List.map_append, ← h2, Finset.prod_range_succ]
    simp [Finset.prod_range_succ]

theorem zLoop_panic (num den : Nat → F) (step : Nat → Res (F × F)) (b n : Nat) (hstep : ∀ i ≤ b, step i = .ok (num i, den i))
    (hb : b < n) (hden : den b = 0) (hfirst : ∀ i < b, den i ≠ 0) :
    (List.range n).foldlM (fun (st : F × List F) i => do
        let nd ← step i
        let inv ← invUnwrap nd.2
        let prev := st.1 * (nd.1 * inv)
        pure (prev, st.2 ++ [prev])) (1, [1]) = .panic := by
  obtain ⟨vals, h1, -⟩ := zLoop_eq num den step b (fun i hi => hstep i (by omega)) hfirst
  rw [show n = b + (n - 1 - b + 1) by omega, List.range_add, List.foldlM_append, h1, Res.bind_ok, List.range_succ_eq_map,
    List.map_cons, List.foldlM_cons, add_zero, hstep b le_rfl, Res.bind_ok, invUnwrap, if_pos hden]
  rfl

/-- C60: if no denominator of the rows before the last is zero, the values of the permutation accumulator telescope: `z₀ = 1`
and `zₖ ∏_{i<k} denᵢ = ∏_{i<k} numᵢ`; otherwise the inverse panics. -/
theorem C60_z_poly (root : F) (κ W : Nat → F) (σ : Nat → Nat) (n : Nat) (beta gamma : F) (hn : 0 < n)
    (hσ : ∀ v < 5 * n, σ v < 5 * n) :
    ((∀ i < n - 1, zDen root κ W σ n beta gamma i ≠ 0) → ∃ vals : List F,
        zPoly ((List.range (5 * n)).map σ) ((List.range (5 * n)).map W) ((List.range n).map fun i => root ^ i)
          ((List.range 5).map κ) beta gamma = .ok (fromCoefs vals) ∧ vals.length = n ∧
        ∀ k < n, (vals[k]?.getD 0) * ∏ i ∈ Finset.range k, zDen root κ W σ n beta gamma i =
          ∏ i ∈ Finset.range k, zNum root κ W n beta gamma i) ∧
      ((∃ i < n - 1, zDen root κ W σ n beta gamma i = 0) →
        zPoly ((List.range (5 * n)).map σ) ((List.range (5 * n)).map W) ((List.range n).map fun i => root ^ i)
          ((List.range 5).map κ) beta gamma = .panic) := by
  have hl : ((List.range (5 * n)).map W).length / 5 = n := by
    rw [List.length_map, List.length_range]; omega
  have hstep : ∀ i < n, _ := fun i hi => zStep_eq root κ W σ n beta gamma i hi hσ
  constructor
  · intro hden
    obtain ⟨vals, h1, h2⟩ := zLoop_eq _ _ _ (n - 1) (fun i hi => hstep i (by omega)) hden
    refine ⟨vals, ?_, ?_, ?_⟩
    · unfold zPoly
      simp only [hl]
      rw [if_neg (by omega), h1, Res.bind_ok]
      rfl
    · rw [h2, List.length_map, List.length_range]; omega
    · intro k hk
      rw [h2, List.getElem?_map, List.getElem?_range (by omega), Option.map_some, Option.getD_some, ← Finset.prod_mul_distrib]
      refine Finset.prod_congr rfl fun i hi => ?_
      rw [mul_assoc, inv_mul_cancel₀ (hden i (by rw [Finset.mem_range] at hi; omega)), mul_one]
  · intro hex
    classical
    set b := Nat.find hex with hb
    obtain ⟨hb1, hb2⟩ := Nat.find_spec hex
    unfold zPoly
    simp only [hl]
    rw [if_neg (by omega), zLoop_panic _ _ _ b (n - 1) (fun i hi => hstep i (by omega)) hb1 hb2
      (fun i hi h => Nat.find_min hex hi ⟨by omega, h⟩)]
    rfl

/-! ### The linearisation of prover and verifier -/

theorem rForm_map {M N : Type} [AddCommGroup M] [Module F M] [AddCommGroup N] [Module F N] (f : M →ₗ[F] N) (wEv k sEv : List F)
    (zEv : F) (ch : Challenges F) (l1 zh : F) (nT : Nat) (mult : List F) (qs : List M) (qb sLast z : M) (ts : List M) :
    f (rForm wEv k sEv zEv ch l1 zh nT mult qs qb sLast z ts) =
      rForm wEv k sEv zEv ch l1 zh nT mult (qs.map f) (f qb) (f sLast) (f z) (ts.map f) := by
  have hsum : ∀ (mult : List F) (qs : List M), f (List.zipWith (fun a c => a • c) mult qs).sum =
      (List.zipWith (fun a c => a • c) mult (qs.map f)).sum := by
    intro mult
    induction mult with
    | nil => intro qs; simp
    | cons a mult ih =>
      intro qs
      cases qs with
      | nil => simp
      | cons q qs => simp [ih]
  unfold rForm
  rw [map_sub, map_add, map_sub, map_add, map_smul, map_smul, map_smul, map_smul, hsum, combine_map]

/-- evaluation at the secret times the base, as a linear map -/
noncomputable def commitMap (s : F) (g : G1) : F[X] →ₗ[F] G1 := LinearMap.smulRight (Polynomial.leval s) g

omit [DecidableEq F] in
theorem commitMap_apply (s : F) (g : G1) (p : F[X]) : commitMap s g p = p.eval s • g := rfl

/-- C60: the linearisation polynomial of the prover has as its commitment the one the verifier computes from the commitments. -/
theorem C60_linearisation_commitment (s : F) (g : G1) (wEv k sEv : List F) (zEv : F) (ch : Challenges F) (l1 zh : F) (nT : Nat)
    (mult : List F) (hmult : evalSelectorMultipliers wEv = some mult) (hw : wEv.length = 5) (hk : k.length = 5)
    (hs : 4 ≤ sEv.length) (qs : List (List F)) (hqs : qs.length = 13) (qb sLast z : List F) (ts : List (List F)) (hts : ts ≠ []) :
    ∃ r c, rPolyOrComm polyOps mult qs qb k sLast z wEv sEv zEv ch ts l1 zh nT = .ok r ∧
      rPolyOrComm commOps mult (qs.map fun p => (toPoly p).eval s • g) ((toPoly qb).eval s • g) k ((toPoly sLast).eval s • g)
        ((toPoly z).eval s • g) wEv sEv zEv ch (ts.map fun p => (toPoly p).eval s • g) l1 zh nT = .ok c ∧
      c = (toPoly r).eval s • g ∧
      toPoly r = rForm wEv k sEv zEv ch l1 zh nT mult (qs.map toPoly) (toPoly qb) (toPoly sLast) (toPoly z) (ts.map toPoly) := by
  match wEv, hw, k, hk, sEv, hs, qs, hqs, ts, hts with
  | [a0, a1, a2, a3, a4], _, [k0, k1, k2, k3, k4], _, s0 :: s1 :: s2 :: s3 :: more, _, q :: qs, hqs, t :: ts, _ =>
    obtain ⟨r, h1, h2⟩ := rPolyOrComm_eq hom_poly a0 a1 a2 a3 a4 k0 k1 k2 k3 k4 s0 s1 s2 s3 more zEv ch l1 zh nT mult
      hmult q qs (by simp at hqs; omega) qb sLast z t ts
    obtain ⟨c, h1', h2'⟩ := rPolyOrComm_eq (hom_comm (F := F) (G1 := G1)) a0 a1 a2 a3 a4 k0 k1 k2 k3 k4 s0 s1 s2 s3 more zEv ch l1 zh
      nT mult hmult ((toPoly q).eval s • g) (qs.map fun p => (toPoly p).eval s • g) (by simp at hqs ⊢; omega)
      ((toPoly qb).eval s • g) ((toPoly sLast).eval s • g) ((toPoly z).eval s • g) ((toPoly t).eval s • g)
      (ts.map fun p => (toPoly p).eval s • g)
    refine ⟨r, c, h1, by simpa using h1', ?_, by simpa using h2⟩
    have e := rForm_map (commitMap s g) [a0, a1, a2, a3, a4] [k0, k1, k2, k3, k4] (s0 :: s1 :: s2 :: s3 :: more) zEv ch l1 zh nT mult
      (toPoly q :: qs.map toPoly) (toPoly qb) (toPoly sLast) (toPoly z) (toPoly t :: ts.map toPoly)
    rw [← h2, commitMap_apply] at e
    rw [e]
    have h2'' : c = _ := h2'
    rw [h2'']
    simp [commitMap_apply, List.map_map, Function.comp_def]

/-- C60: the two versions of `r_poly_or_comm` also give the same polynomial. -/
theorem C60_parallel_polynomial (wEv k sEv : List F) (zEv : F) (ch : Challenges F) (l1 zh : F) (nT : Nat) (mult : List F)
    (hmult : evalSelectorMultipliers wEv = some mult) (hw : wEv.length = 5) (hk : k.length = 5) (hs : 4 ≤ sEv.length)
    (qs : List (List F)) (hqs : qs.length = 13) (qb sLast z : List F) (ts : List (List F)) (hts : ts ≠ []) :
    ∃ r r', rPolyOrComm polyOps mult qs qb k sLast z wEv sEv zEv ch ts l1 zh nT = .ok r ∧
      rPolyOrCommParallel polyOps mult qs qb k sLast z wEv sEv zEv ch ts l1 zh nT = .ok r' ∧ toPoly r = toPoly r' := by
  match wEv, hw, k, hk, sEv, hs, qs, hqs, ts, hts with
  | [a0, a1, a2, a3, a4], _, [k0, k1, k2, k3, k4], _, s0 :: s1 :: s2 :: s3 :: more, _, q :: qs, hqs, t :: ts, _ =>
    obtain ⟨r, h1, h2⟩ := rPolyOrComm_eq hom_poly a0 a1 a2 a3 a4 k0 k1 k2 k3 k4 s0 s1 s2 s3 more zEv ch l1 zh nT mult
      hmult q qs (by simp at hqs; omega) qb sLast z t ts
    obtain ⟨r', h1', h2'⟩ := rPolyOrCommParallel_eq hom_poly a0 a1 a2 a3 a4 k0 k1 k2 k3 k4 s0 s1 s2 s3 more zEv ch l1 zh
      nT mult hmult q qs (by simpa using hqs) qb sLast z t ts
    exact ⟨r, r', h1, h1', h2.trans h2'.symm⟩

end Verif.Snark
