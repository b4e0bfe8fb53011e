import Mathlib.RingTheory.RootsOfUnity.PrimitiveRoots
import Mathlib.Algebra.Ring.GeomSum
import Mathlib.LinearAlgebra.Lagrange
import Mathlib.GroupTheory.OrderOfElement
import Verif.Poly.Props
import Verif.Algebra.Pow
import Verif.Algebra.Bls

/-!
C58: the fast Fourier transform of plonk/src/poly_commit/field_polynomial.rs and its inverse.
-/

namespace Verif.Poly

open Polynomial

/-! ### Model -/

/-- `is_power_of_two` of `usize` -/
def isPow2 (n : Nat) : Bool := n == 2 ^ n.log2

/-- the assertion of field_polynomial.rs:506-509, 517-520, 557, 644 -/
def validSize (n : Nat) : Bool := isPow2 n || (n % 3 == 0 && isPow2 (n / 3))

/-- the entries at even positions, field_polynomial.rs:580-585 -/
def evens {α : Type} : List α → List α
  | a :: _ :: l => a :: evens l
  | l => l

/-- the entries at odd positions, field_polynomial.rs:586-591 -/
def odds {α : Type} : List α → List α
  | _ :: b :: l => b :: odds l
  | _ => []

theorem evens_length {α : Type} : ∀ l : List α, (evens l).length = (l.length + 1) / 2
  | [] => by simp [evens]
  | [_] => by simp [evens]
  | _ :: _ :: l => by simp only [evens, List.length_cons, evens_length l]; omega

theorem odds_length {α : Type} : ∀ l : List α, (odds l).length = l.length / 2
  | [] => by simp [odds]
  | [_] => by simp [odds]
  | _ :: _ :: l => by simp only [odds, List.length_cons, odds_length l]; omega

section
variable {F : Type} [Field F] [DecidableEq F]

omit [DecidableEq F] in
/-- the loop of field_polynomial.rs:596-603: the entries `fft[i]` and the entries `fft[n/2 + i]` -/
def butterfly (root : F) : List F → List F → F → List F × List F
  | e :: es, o :: os, omega =>
    let r := butterfly root es os (omega * root)
    ((e + omega * o) :: r.1, (e - omega * o) :: r.2)
  | _, _, _ => ([], [])

omit [DecidableEq F] in
/-- models `recursive_fft`, field_polynomial.rs:555-605.  For even `n` both halves have `n / 2` entries, so the vector `fft` is the
first entries followed by the second ones; for odd `n` other than 1 and 3 the assertion has failed before. -/
def recursiveFft (coefs : List F) (root : F) : Res (List F) :=
  if validSize coefs.length = false then .panic
  else if h1 : coefs.length ≤ 1 then .ok coefs
  else match coefs with
    | [c0, c1, c2] =>
      let rootSq := root * root
      .ok [c0 + c1 + c2, c0 + c1 * root + c2 * rootSq, c0 + c1 * rootSq + c2 * (rootSq * rootSq)]
    | coefs => do
      let ye ← recursiveFft (evens coefs) (root * root)
      let yo ← recursiveFft (odds coefs) (root * root)
      let r := butterfly root ye yo 1
      pure (r.1 ++ r.2)
termination_by coefs.length
decreasing_by
  · rw [evens_length]; omega
  · rw [odds_length]; omega

omit [DecidableEq F] in
/-- models `fft_with_unity_root`, field_polynomial.rs:516-528: the length of the padding is `num_points - degree - 1` in `usize`,
which underflows (a panic, with or without overflow checks) when the degree equals `num_points` -/
def fftWithUnityRoot (p : List F) (root : F) (n : Nat) : Res (List F) :=
  if validSize n = false then .panic
  else if n + 1 > degree p then
    if n < degree p + 1 then .panic
    else recursiveFft (p ++ List.replicate (n - degree p - 1) 0) root
  else recursiveFft p root

/-- models `coset_fft_with_unity_root`, field_polynomial.rs:531-533 -/
def cosetFft (p : List F) (root : F) (n : Nat) (k : F) : Res (List F) := fftWithUnityRoot (mulVar p k) root n

/-- models `recursive_ifft`, field_polynomial.rs:642-656; `n as u32` truncates, `inv().unwrap()` panics for zero -/
def recursiveIfft (values : List F) (root : F) : Res (List F) :=
  let n := values.length
  if validSize n = false then .panic
  else
    let nF := ((n % 2 ^ 32 : Nat) : F)
    if nF = 0 then .panic
    else do
      let l ← recursiveFft values (root ^ (n - 1))
      pure (l.map fun x => nF⁻¹ * x)

omit [DecidableEq F] in
/-- `Vec::resize` with zero -/
def resize (values : List F) (len : Nat) : List F := values.take len ++ List.replicate (len - values.length) 0

/-- models `ffti`, field_polynomial.rs:537-544 -/
def ffti (root : F) (values : List F) (len : Nat) : Res (List F) := do
  let coefs ← recursiveIfft (resize values len) root
  pure (fromCoefs coefs)

/-- models `coset_ffti`, field_polynomial.rs:548-550 -/
def cosetFfti (root : F) (values : List F) (kInv : F) (len : Nat) : Res (List F) := do
  let p ← ffti root values len
  pure (mulVar p kInv)

/-- the loop of `u32_limbs_to_u64_limbs`, field_polynomial.rs:626-636; `even` is `some` after a limb at an even position -/
def packLimbs : List Nat → List Nat
  | a :: b :: l => (a + b * 2 ^ 32) :: packLimbs l
  | [a] => if a ≠ 0 then [a] else []
  | [] => []

/-- models `primitive_nth_root_of_unity`, field_polynomial.rs:608-619, for a field of size `q` with multiplicative generator `g` and
exponentiation `pow` on limbs; the division by zero of `BigUint` panics -/
def primitiveRoot (q : Nat) (g : F) (pow : F → List Nat → Res F) (n : Nat) : Res (Option F) :=
  if n = 0 then .panic
  else if (q - 1) % n ≠ 0 then .ok none
  else do
    let r ← pow g (packLimbs (Nat.digits (2 ^ 32) ((q - 1) / n)))
    pure (some r)

/-- models `fft`, field_polynomial.rs:505-512 -/
def fft (q : Nat) (g : F) (pow : F → List Nat → Res F) (p : List F) (n : Nat) : Res (Option (List F × F)) :=
  if validSize n = false then .panic
  else do
    match ← primitiveRoot q g pow n with
    | none => pure none
    | some root => do
      let l ← fftWithUnityRoot p root n
      pure (some (l, root))

/-! ### Lemmas -/

theorem validSize_iff (n : Nat) : validSize n = true ↔ ∃ k, n = 2 ^ k ∨ n = 3 * 2 ^ k := by
  have h2 : ∀ n, isPow2 n = true ↔ ∃ k, n = 2 ^ k := by
    intro n
    unfold isPow2
    rw [beq_iff_eq]
    constructor
    · intro h; exact ⟨_, h⟩
    · rintro ⟨k, rfl⟩; rw [Nat.log2_two_pow]
  unfold validSize
  rw [Bool.or_eq_true, Bool.and_eq_true, beq_iff_eq, h2, h2]
  constructor
  · rintro (⟨k, h⟩ | ⟨h, k, hk⟩)
    · exact ⟨k, Or.inl h⟩
    · exact ⟨k, Or.inr (by omega)⟩
  · rintro ⟨k, h | h⟩
    · exact Or.inl ⟨k, h⟩
    · exact Or.inr ⟨by omega, k, by omega⟩

omit [DecidableEq F] in
theorem eval_even_odd : ∀ (l : List F) (x : F),
    (toPoly l).eval x = (toPoly (evens l)).eval (x * x) + x * (toPoly (odds l)).eval (x * x)
  | [], x => by simp [evens, odds, toPoly]
  | [a], x => by simp [evens, odds, toPoly]
  | a :: b :: l, x => by
    have := eval_even_odd l x
    simp only [evens, odds, toPoly, eval_add, eval_C, eval_mul, eval_X] at this ⊢
    rw [this]; ring

omit [DecidableEq F] in
theorem butterfly_spec (root : F) (m : Nat) (E O : Nat → F) (j : Nat) :
    butterfly root ((List.range m).map fun i => E (j + i)) ((List.range m).map fun i => O (j + i)) (root ^ j) =
      ((List.range m).map fun i => E (j + i) + root ^ (j + i) * O (j + i),
       (List.range m).map fun i => E (j + i) - root ^ (j + i) * O (j + i)) := by
  induction m generalizing j with
  | zero => rfl
  | succ m ih =>
    have h := ih (j + 1)
    rw [pow_succ] at h
    simp only [List.range_succ_eq_map, List.map_cons, List.map_map, Nat.add_zero, butterfly]
    have e : ∀ f : Nat → F, ((fun i => f (j + i)) ∘ Nat.succ) = fun i => f (j + 1 + i) := by
      intro f; funext i; simp only [Function.comp_apply]; congr 1; omega
    rw [e E, e O, h, e (fun i => E i + root ^ i * O i), e (fun i => E i - root ^ i * O i)]

omit [DecidableEq F] in
theorem primitive_half {root : F} {n : Nat} (h : IsPrimitiveRoot root n) (hn : 0 < n) (he : n % 2 = 0) :
    root ^ (n / 2) = -1 ∧ IsPrimitiveRoot (root * root) (n / 2) := by
  have h2 : n = 2 * (n / 2) := by omega
  constructor
  · have hsq : root ^ (n / 2) * root ^ (n / 2) = 1 := by
      rw [← pow_add, show n / 2 + n / 2 = n by omega, h.pow_eq_one]
    rcases mul_self_eq_one_iff.1 hsq with h1 | h1
    · exact absurd (h.dvd_of_pow_eq_one _ h1) (fun hd => by have := Nat.le_of_dvd (by omega) hd; omega)
    · exact h1
  · rw [← pow_two]
    exact h.pow hn h2

omit [DecidableEq F] in
theorem recursiveFft_spec (coefs : List F) (root : F) (hv : validSize coefs.length = true)
    (hr : IsPrimitiveRoot root coefs.length) :
    recursiveFft coefs root = .ok ((List.range coefs.length).map fun i => (toPoly coefs).eval (root ^ i)) := by
  induction hn : coefs.length using Nat.strong_induction_on generalizing coefs root with
  | _ n ih =>
    rw [recursiveFft, if_neg (by rw [hv]; simp)]
    obtain ⟨k, hk⟩ := (validSize_iff _).1 hv
    have hpos : 0 < coefs.length := by
      rcases hk with hk | hk <;> rw [hk] <;> positivity
    by_cases h1 : coefs.length ≤ 1
    · rw [dif_pos h1]
      match coefs, h1, hpos with
      | [c], _, _ => subst hn; simp [toPoly]
    · rw [dif_neg h1]
      by_cases h3 : coefs.length = 3
      · match coefs, h3 with
        | [c0, c1, c2], _ =>
          subst hn
          simp only [List.length_cons, List.length_nil, List.range_succ, List.range_zero, List.nil_append, List.map_append,
            List.map_cons, List.map_nil, List.cons_append, toPoly, eval_add, eval_C, eval_mul, eval_X, eval_zero]
          congr 2
          · ring
          · congr 1
            · ring
            · congr 1
              ring
      · have heven : coefs.length % 2 = 0 ∧ validSize (coefs.length / 2) = true := by
          rw [validSize_iff]
          cases k with
          | zero => rcases hk with hk | hk <;> omega
          | succ k =>
            rw [pow_succ] at hk
            rcases hk with hk | hk
            · exact ⟨by omega, k, Or.inl (by omega)⟩
            · exact ⟨by omega, k, Or.inr (by omega)⟩
        obtain ⟨he, hv'⟩ := heven
        obtain ⟨hhalf, hprim⟩ := primitive_half hr hpos he
        have hle : (evens coefs).length = coefs.length / 2 := by rw [evens_length]; omega
        have hlo : (odds coefs).length = coefs.length / 2 := odds_length coefs
        have he' := ih _ (by omega) (evens coefs) (root * root) (by rw [hle]; exact hv') (by rw [hle]; exact hprim) hle
        have ho' := ih _ (by omega) (odds coefs) (root * root) (by rw [hlo]; exact hv') (by rw [hlo]; exact hprim) hlo
        split
        · exact absurd rfl h3
        · simp only [he', ho', Res.bind_ok]
          have hb := butterfly_spec root (coefs.length / 2) (fun i => (toPoly (evens coefs)).eval ((root * root) ^ i))
            (fun i => (toPoly (odds coefs)).eval ((root * root) ^ i)) 0
          simp only [Nat.zero_add, pow_zero] at hb
          rw [hb, ← hn]
          have hsplit : List.range coefs.length = List.range (coefs.length / 2) ++
              (List.range (coefs.length / 2)).map fun i => coefs.length / 2 + i := by
            conv_lhs => rw [show coefs.length = coefs.length / 2 + coefs.length / 2 by omega, List.range_add]
          rw [hsplit, List.map_append, List.map_map]
          refine congrArg Res.ok (congrArg₂ _ (List.map_congr_left fun i _ => ?_) (List.map_congr_left fun i _ => ?_))
          · rw [eval_even_odd coefs (root ^ i), ← mul_pow]
          · rw [Function.comp_apply, eval_even_odd coefs, pow_add, hhalf, show -1 * root ^ i * (-1 * root ^ i) = (root * root) ^ i by
              rw [mul_pow]; ring]
            ring

/-! ### C58 -/

omit [DecidableEq F] in
/-- C58: for a size `n` of the form `2^k` or `3·2^k`, a primitive `n`-th root of unity and a polynomial of degree below `n` the
transform is the list of the values at the powers of the root. -/
theorem C58_fft_evaluates (p : List F) (root : F) (n : Nat) (hn : ∃ k, n = 2 ^ k ∨ n = 3 * 2 ^ k)
    (hr : IsPrimitiveRoot root n) (hp : p ≠ []) (hlen : p.length ≤ n) :
    fftWithUnityRoot p root n = .ok ((List.range n).map fun i => (toPoly p).eval (root ^ i)) := by
  have hpl := List.length_pos_iff.2 hp
  have hd : degree p = p.length - 1 := by rw [degree, if_neg (by omega)]
  have hv := (validSize_iff n).2 hn
  have hpad : (p ++ List.replicate (n - degree p - 1) 0).length = n := by
    rw [List.length_append, List.length_replicate, hd]; omega
  unfold fftWithUnityRoot
  rw [if_neg (by rw [hv]; simp), if_pos (by omega), if_neg (by omega),
    recursiveFft_spec _ _ (by rw [hpad]; exact hv) (by rw [hpad]; exact hr), hpad, toPoly_append, toPoly_replicate, mul_zero,
    add_zero]

/-- C58: on a coset. -/
theorem C58_coset_fft_evaluates (p : List F) (root : F) (n : Nat) (k : F) (hn : ∃ k, n = 2 ^ k ∨ n = 3 * 2 ^ k)
    (hr : IsPrimitiveRoot root n) (hp : p ≠ []) (hlen : p.length ≤ n) :
    cosetFft p root n k = .ok ((List.range n).map fun i => (toPoly p).eval (k * root ^ i)) := by
  have hne : mulVar p k ≠ [] := (C57_results_normal p p k hp).2.2.2.2.2.2.2.2.2.1
  have hl : (mulVar p k).length ≤ n := by
    obtain ⟨m, hm, -⟩ := trim_spec (mulVarLoop k p 1)
    have := congrArg List.length hm
    rw [mulVarLoop_length, List.length_append] at this
    unfold mulVar
    omega
  rw [cosetFft, C58_fft_evaluates _ root n hn hr hne hl, (C57_ring_operations p p k).2.2.2.2.2.2.2]
  refine congrArg Res.ok (List.map_congr_left fun i _ => ?_)
  rw [eval_comp, eval_mul, eval_C, eval_X]

omit [DecidableEq F] in
theorem eval_toPoly_sum (l : List F) (x : F) :
    (toPoly l).eval x = ∑ i ∈ Finset.range l.length, (toPoly l).coeff i * x ^ i := by
  by_cases h : l = []
  · subst h; simp [toPoly]
  · refine eval_eq_sum_range' ?_ x
    by_cases h0 : toPoly l = 0
    · rw [h0, natDegree_zero]; exact List.length_pos_iff.2 h
    · exact (natDegree_lt_iff_degree_lt h0).2 (toPoly_degree_lt l)

omit [DecidableEq F] in
/-- the power sums of a root of unity -/
theorem power_sum {root : F} {n : Nat} (hr : IsPrimitiveRoot root n) (a b : Nat) (ha : a < n) (hb : b < n) :
    ∑ j ∈ Finset.range n, (root ^ a) ^ j * ((root ^ (n - 1)) ^ b) ^ j = if a = b then (n : F) else 0 := by
  have hpos : 0 < n := by omega
  have hinv : root ^ (n - 1) * root = 1 := by rw [← pow_succ, Nat.sub_add_cancel hpos, hr.pow_eq_one]
  simp only [← mul_pow]
  by_cases hab : a = b
  · subst hab
    rw [if_pos rfl, ← mul_pow, mul_comm root, hinv]
    simp
  · rw [if_neg hab]
    have hne : root ^ a * (root ^ (n - 1)) ^ b ≠ 1 := by
      intro h
      have h' : root ^ a = root ^ b := by
        have := congrArg (fun x => x * root ^ b) h
        simp only [one_mul] at this
        rw [mul_assoc, ← mul_pow, hinv, one_pow, mul_one] at this
        exact this
      exact hab (hr.pow_inj ha hb h')
    have hpow : (root ^ a * (root ^ (n - 1)) ^ b) ^ n = 1 := by
      rw [mul_pow, ← pow_mul, mul_comm a n, pow_mul, hr.pow_eq_one, one_pow, one_mul, ← pow_mul, ← pow_mul,
        show (n - 1) * (b * n) = n * ((n - 1) * b) by ring, pow_mul, hr.pow_eq_one, one_pow]
    have hg := geom_sum_mul (root ^ a * (root ^ (n - 1)) ^ b) n
    rw [hpow, sub_self] at hg
    rcases mul_eq_zero.1 hg with h | h
    · exact h
    · exact absurd (sub_eq_zero.1 h) hne

omit [DecidableEq F] in
theorem primitive_inverse {root : F} {n : Nat} (hr : IsPrimitiveRoot root n) (hpos : 0 < n) :
    IsPrimitiveRoot (root ^ (n - 1)) n := by
  refine hr.pow_of_coprime _ ?_
  have := Nat.coprime_self_sub_right (m := 1) (n := n) (by omega)
  rw [Nat.coprime_comm]
  exact this.2 (Nat.coprime_one_right n)

omit [DecidableEq F] in
theorem natCast_ne_zero {root : F} {n : Nat} (hr : IsPrimitiveRoot root n) (hpos : 0 < n) : (n : F) ≠ 0 := by
  haveI : NeZero n := ⟨by omega⟩
  exact (hr.neZero' (n := n)).out

/-- the inverse transform of `n` values: `n` coefficients of a polynomial with these values -/
theorem recursiveIfft_spec (values : List F) (root : F) (hv : validSize values.length = true)
    (hr : IsPrimitiveRoot root values.length) (h32 : values.length < 2 ^ 32) :
    ∃ coefs : List F, recursiveIfft values root = .ok coefs ∧ coefs.length = values.length ∧
      ∀ i (v : F), values[i]? = some v → (toPoly coefs).eval (root ^ i) = v := by
  obtain ⟨k, hk⟩ := (validSize_iff _).1 hv
  have hpos : 0 < values.length := by rcases hk with hk | hk <;> rw [hk] <;> positivity
  have hn0 := natCast_ne_zero hr hpos
  set n := values.length with hn
  refine ⟨((List.range n).map fun i => (toPoly values).eval ((root ^ (n - 1)) ^ i)).map fun x => (n : F)⁻¹ * x, ?_, by simp, ?_⟩
  · unfold recursiveIfft
    simp only [← hn]
    rw [if_neg (by rw [hv]; simp), Nat.mod_eq_of_lt h32, if_neg hn0,
      recursiveFft_spec values _ (by rw [← hn]; exact hv) (by rw [← hn]; exact primitive_inverse hr hpos)]
    rfl
  · intro i v hi
    have hin : i < n := (List.getElem?_eq_some_iff.1 hi).1
    rw [eval_toPoly_sum, List.length_map, List.length_map, List.length_range]
    have hcoef : ∀ b ∈ Finset.range n,
        (toPoly (((List.range n).map fun i => (toPoly values).eval ((root ^ (n - 1)) ^ i)).map fun x => (n : F)⁻¹ * x)).coeff b *
          (root ^ i) ^ b =
        ∑ j ∈ Finset.range n, (n : F)⁻¹ * (toPoly values).coeff j * ((root ^ i) ^ b * ((root ^ (n - 1)) ^ j) ^ b) := by
      intro b hb
      rw [Finset.mem_range] at hb
      rw [coeff_toPoly, List.getElem?_map, List.getElem?_map, List.getElem?_range hb, Option.map_some, Option.map_some,
        Option.getD_some, eval_toPoly_sum, ← hn, Finset.mul_sum, Finset.sum_mul]
      refine Finset.sum_congr rfl fun j _ => ?_
      rw [← pow_mul (root ^ (n - 1)) b j, ← pow_mul (root ^ (n - 1)) j b, mul_comm b j]
      ring
    rw [Finset.sum_congr rfl hcoef, Finset.sum_comm]
    have hinner : ∀ j ∈ Finset.range n,
        ∑ b ∈ Finset.range n, (n : F)⁻¹ * (toPoly values).coeff j * ((root ^ i) ^ b * ((root ^ (n - 1)) ^ j) ^ b) =
        if i = j then (toPoly values).coeff j else 0 := by
      intro j hj
      rw [Finset.mem_range] at hj
      rw [← Finset.mul_sum, power_sum hr i j hin hj]
      split
      · rw [mul_right_comm, inv_mul_cancel₀ hn0, one_mul]
      · rw [mul_zero]
    rw [Finset.sum_congr rfl hinner, Finset.sum_ite_eq, if_pos (Finset.mem_range.2 hin), coeff_toPoly, hi, Option.getD_some]

omit [DecidableEq F] in
theorem resize_length (values : List F) (len : Nat) : (resize values len).length = len := by
  rw [resize, List.length_append, List.length_take, List.length_replicate]; omega

omit [DecidableEq F] in
theorem resize_get (values : List F) (len i : Nat) (h : i < len) :
    (resize values len)[i]? = some ((values[i]?).getD 0) := by
  rw [resize]
  by_cases hi : i < values.length
  · rw [List.getElem?_append_left (by rw [List.length_take]; omega), List.getElem?_take_of_lt h,
      List.getElem?_eq_getElem hi, Option.getD_some]
  · rw [List.getElem?_append_right (by rw [List.length_take]; omega), List.getElem?_replicate, if_pos (by
      rw [List.length_take]; omega), List.getElem?_eq_none (by omega), Option.getD_none]

/-- C58: the inverse transform yields the one polynomial of degree below `n` which takes the given values (zero where none is
given) at the powers of the root.  `n as u32` loses nothing for `n < 2^32`. -/
theorem C58_ffti_interpolates (root : F) (values : List F) (n : Nat) (hn : ∃ k, n = 2 ^ k ∨ n = 3 * 2 ^ k)
    (h32 : n < 2 ^ 32) (hr : IsPrimitiveRoot root n) :
    ∃ p : List F, ffti root values n = .ok p ∧ Normal p ∧ p.length ≤ n ∧
      (∀ i < n, (toPoly p).eval (root ^ i) = (values[i]?).getD 0) ∧
      ∀ f : F[X], f.degree < n → (∀ i < n, f.eval (root ^ i) = (values[i]?).getD 0) → f = toPoly p := by
  have hl := resize_length values n
  obtain ⟨coefs, h1, h2, h3⟩ := recursiveIfft_spec (resize values n) root (by rw [hl]; exact (validSize_iff n).2 hn)
    (by rw [hl]; exact hr) (by rw [hl]; exact h32)
  rw [hl] at h2
  have hpos : 0 < n := by
    obtain ⟨k, hk | hk⟩ := hn <;> rw [hk] <;> positivity
  have hne : coefs ≠ [] := by rw [← List.length_pos_iff]; omega
  have hev : ∀ i < n, (toPoly (fromCoefs coefs)).eval (root ^ i) = (values[i]?).getD 0 := by
    intro i hi
    rw [fromCoefs, toPoly_trim]
    exact h3 i _ (resize_get values n i hi)
  refine ⟨fromCoefs coefs, by rw [ffti, h1]; rfl, normal_trim hne, ?_, hev, ?_⟩
  · obtain ⟨m, hm, -⟩ := trim_spec coefs
    have := congrArg List.length hm
    rw [List.length_append] at this
    unfold fromCoefs
    omega
  · intro f hf hfe
    refine eq_of_degrees_lt_of_eval_index_eq (s := Finset.range n) (v := fun i => root ^ i) ?_ ?_ ?_ ?_
    · intro a ha b hb hab
      exact hr.pow_inj (by simpa using ha) (by simpa using hb) hab
    · rw [Finset.card_range]; exact hf
    · rw [Finset.card_range, fromCoefs, toPoly_trim, ← h2]; exact toPoly_degree_lt coefs
    · intro i hi
      rw [hfe i (by simpa using hi), hev i (by simpa using hi)]

/-- C58: the inverse transform recovers a polynomial of degree below `n` from its transform. -/
theorem C58_ffti_inverts_fft (p : List F) (root : F) (n : Nat) (hn : ∃ k, n = 2 ^ k ∨ n = 3 * 2 ^ k) (h32 : n < 2 ^ 32)
    (hr : IsPrimitiveRoot root n) (hp : Normal p) (hlen : p.length ≤ n) :
    (fftWithUnityRoot p root n).bind (fun values => ffti root values n) = .ok p := by
  rw [C58_fft_evaluates p root n hn hr hp.1 hlen]
  obtain ⟨p', h1, h2, -, -, h4⟩ := C58_ffti_interpolates root ((List.range n).map fun i => (toPoly p).eval (root ^ i)) n hn h32 hr
  have e : toPoly p = toPoly p' := by
    refine h4 _ (lt_of_lt_of_le (toPoly_degree_lt p) (by exact_mod_cast hlen)) fun i hi => ?_
    rw [List.getElem?_map, List.getElem?_range hi, Option.map_some, Option.getD_some]
  show ffti root _ n = .ok p
  rw [h1, (C57_equality hp h2).2 e]

/-- C58: and the transform recovers `n` values from their inverse transform. -/
theorem C58_fft_inverts_ffti (root : F) (values : List F) (hn : ∃ k, values.length = 2 ^ k ∨ values.length = 3 * 2 ^ k)
    (h32 : values.length < 2 ^ 32) (hr : IsPrimitiveRoot root values.length) :
    (ffti root values values.length).bind (fun p => fftWithUnityRoot p root values.length) = .ok values := by
  obtain ⟨p, h1, h2, h3, h4, -⟩ := C58_ffti_interpolates root values values.length hn h32 hr
  rw [h1]
  show fftWithUnityRoot p root _ = _
  rw [C58_fft_evaluates p root _ hn hr h2.1 h3]
  refine congrArg Res.ok (List.ext_getElem? fun i => ?_)
  by_cases hi : i < values.length
  · rw [List.getElem?_map, List.getElem?_range hi, Option.map_some, h4 i hi, List.getElem?_eq_getElem hi, Option.getD_some]
  · rw [List.getElem?_eq_none (by simp; omega), List.getElem?_eq_none (by omega)]

/-- C58: the same on a coset `k·⟨root⟩`, the inverse being given `k⁻¹`. -/
theorem C58_coset_ffti_inverts (p : List F) (root : F) (n : Nat) (k : F) (hk : k ≠ 0) (hn : ∃ k, n = 2 ^ k ∨ n = 3 * 2 ^ k)
    (h32 : n < 2 ^ 32) (hr : IsPrimitiveRoot root n) (hp : Normal p) (hlen : p.length ≤ n) :
    (cosetFft p root n k).bind (fun values => cosetFfti root values k⁻¹ n) = .ok p := by
  rw [C58_coset_fft_evaluates p root n k hn hr hp.1 hlen]
  obtain ⟨p', h1, h2, -, -, h4⟩ :=
    C58_ffti_interpolates root ((List.range n).map fun i => (toPoly p).eval (k * root ^ i)) n hn h32 hr
  have hdeg : ((toPoly p).comp (C k * X)).degree < n := by
    rw [← (C57_ring_operations p p k).2.2.2.2.2.2.2, mulVar, toPoly_trim]
    refine lt_of_lt_of_le (toPoly_degree_lt _) ?_
    rw [mulVarLoop_length]; exact_mod_cast hlen
  have e : (toPoly p).comp (C k * X) = toPoly p' := by
    refine h4 _ hdeg fun i hi => ?_
    rw [List.getElem?_map, List.getElem?_range hi, Option.map_some, Option.getD_some, eval_comp, eval_mul, eval_C, eval_X]
  show cosetFfti root _ k⁻¹ n = .ok p
  rw [cosetFfti, h1]
  show Res.ok (mulVar p' k⁻¹) = _
  refine congrArg Res.ok ((C57_equality (C57_results_normal p' p' k⁻¹ h2.1).2.2.2.2.2.2.2.2.2 hp).2 ?_)
  rw [(C57_ring_operations p' p' k⁻¹).2.2.2.2.2.2.2, ← e, comp_assoc, mul_comp, C_comp, X_comp, ← mul_assoc, ← C_mul,
    mul_inv_cancel₀ hk, C_1, one_mul, comp_X]

omit [DecidableEq F] in
/-- C58: sizes of another form stop the program. -/
theorem C58_bad_size_panics (p : List F) (root : F) (n : Nat) (hn : ¬ ∃ k, n = 2 ^ k ∨ n = 3 * 2 ^ k) :
    fftWithUnityRoot p root n = .panic := by
  unfold fftWithUnityRoot
  rw [if_pos]
  rw [← Bool.not_eq_true, validSize_iff]
  exact hn

omit [DecidableEq F] in
theorem butterfly_length (root : F) : ∀ (es os : List F) (omega : F), es.length = os.length →
    (butterfly root es os omega).1.length = es.length ∧ (butterfly root es os omega).2.length = es.length
  | [], _, _, _ => by simp [butterfly]
  | e :: es, [], _, h => by simp at h
  | e :: es, o :: os, omega, h => by
    have := butterfly_length root es os (omega * root) (by simpa using h)
    simp [butterfly, this.1, this.2]

omit [DecidableEq F] in
theorem recursiveFft_length (coefs : List F) (root : F) (values : List F) (h : recursiveFft coefs root = .ok values) :
    values.length = coefs.length := by
  induction hn : coefs.length using Nat.strong_induction_on generalizing coefs root values with
  | _ n ih =>
    rw [recursiveFft] at h
    split at h
    · cases h
    · rename_i hv
      simp only [Bool.not_eq_false] at hv
      split at h
      · cases h; exact hn
      · rename_i h1
        split at h
        · cases h; rw [← hn]; rfl
        · rename_i c0 hne
          obtain ⟨ye, he, h⟩ := Res.bind_eq_ok.1 h
          obtain ⟨yo, ho, h⟩ := Res.bind_eq_ok.1 h
          cases h
          have l1 := ih _ (by rw [evens_length]; omega) _ _ _ he rfl
          have l2 := ih _ (by rw [odds_length]; omega) _ _ _ ho rfl
          rw [evens_length] at l1
          rw [odds_length] at l2
          obtain ⟨k, hk⟩ := (validSize_iff _).1 hv
          have h3 : coefs.length ≠ 3 := by
            intro h3
            match coefs, h3 with
            | [c0, c1, c2], _ => exact hne c0 c1 c2 h1 rfl HEq.rfl
          have heven : coefs.length % 2 = 0 := by
            cases k with
            | zero => rcases hk with hk | hk <;> omega
            | succ k => rw [pow_succ] at hk; rcases hk with hk | hk <;> omega
          have := butterfly_length root ye yo 1 (by omega)
          rw [List.length_append, this.1, this.2]
          omega

omit [DecidableEq F] in
/-- C58 does not extend to polynomials of higher degree: for degree `n` the length of the padding underflows, although `n` points
would do for the values, and above the function works on all coefficients: it stops or lists more than `n` values. -/
theorem C58_high_degree (p : List F) (root : F) (n : Nat) (hn : ∃ k, n = 2 ^ k ∨ n = 3 * 2 ^ k) (h : n < p.length) :
    (p.length = n + 1 → fftWithUnityRoot p root n = .panic) ∧
    (n + 1 < p.length → ∀ values, fftWithUnityRoot p root n = .ok values → values.length = p.length) := by
  have hv := (validSize_iff n).2 hn
  have hd : degree p = p.length - 1 := by rw [degree, if_neg (by omega)]
  unfold fftWithUnityRoot
  rw [if_neg (by rw [hv]; simp)]
  constructor
  · intro h'; rw [if_pos (by omega), if_pos (by omega)]
  · intro h' values hv; rw [if_neg (by omega)] at hv; exact recursiveFft_length p root values hv

theorem packLimbs_value (l : List Nat) : Nat.ofDigits (2 ^ 64) (packLimbs l) = Nat.ofDigits (2 ^ 32) l := by
  induction l using packLimbs.induct with
  | case1 a b l ih =>
    rw [packLimbs, Nat.ofDigits_cons, ih, Nat.ofDigits_cons, Nat.ofDigits_cons]
    push_cast; ring
  | case2 a h => simp [packLimbs, h]
  | case3 a h' => simp only [ne_eq, not_not] at h'; simp [packLimbs, h']
  | case4 => simp [packLimbs]

theorem packLimbs_bound (l : List Nat) (h : ∀ e ∈ l, e < 2 ^ 32) : ∀ e ∈ packLimbs l, e < 2 ^ 64 := by
  induction l using packLimbs.induct with
  | case1 a b l ih =>
    intro e he
    rw [packLimbs, List.mem_cons] at he
    rcases he with rfl | he
    · have h1 := h a (by simp)
      have h2 := h b (by simp)
      omega
    · exact ih (fun e he => h e (by simp [he])) e he
  | case2 a ha =>
    intro e he
    rw [packLimbs, if_pos ha, List.mem_singleton] at he
    subst he
    have := h e (by simp)
    omega
  | case3 a h' => simp only [ne_eq, not_not] at h'; simp [packLimbs, h']
  | case4 => simp [packLimbs]

theorem packLimbs_length (l : List Nat) : 2 * (packLimbs l).length ≤ l.length + 1 := by
  induction l using packLimbs.induct with
  | case1 a b l ih => rw [packLimbs, List.length_cons, List.length_cons, List.length_cons]; omega
  | case2 a h => simp [packLimbs, h]
  | case3 a h' => simp only [ne_eq, not_not] at h'; simp [packLimbs, h']
  | case4 => simp [packLimbs]

omit [DecidableEq F] in
/-- C58: the computed root is a primitive `n`-th root of unity if `n` divides `q - 1`, and there is no result otherwise.  The
exponentiation is only assumed right for exponents of at most `width` words of 64 bits, `q < 2^(64 width)`. -/
theorem C58_primitive_root (q width : Nat) (g : F) (pow : F → List Nat → Res F) (hq : 1 < q) (hq' : q < 2 ^ (64 * width))
    (hg : IsPrimitiveRoot g (q - 1))
    (hpow : ∀ x l, l.length ≤ width → (∀ e ∈ l, e < 2 ^ 64) → pow x l = .ok (x ^ Nat.ofDigits (2 ^ 64) l))
    (n : Nat) (hn : 0 < n) :
    (n ∣ q - 1 → ∃ root, primitiveRoot q g pow n = .ok (some root) ∧ IsPrimitiveRoot root n) ∧
    (¬ n ∣ q - 1 → primitiveRoot q g pow n = .ok none) := by
  constructor
  · intro hd
    obtain ⟨e, he⟩ := hd
    have hee : (q - 1) / n = e := by rw [he, Nat.mul_div_cancel_left e hn]
    refine ⟨g ^ e, ?_, hg.pow (by omega) (by rw [he, mul_comm])⟩
    unfold primitiveRoot
    rw [if_neg (by omega), if_neg (by rw [he]; simp), hee, hpow, packLimbs_value, Nat.ofDigits_digits]
    · rfl
    · have h1 := packLimbs_length (Nat.digits (2 ^ 32) e)
      have h2 : (Nat.digits (2 ^ 32) e).length ≤ 2 * width := by
        rw [Nat.digits_length_le_iff (by norm_num), ← pow_mul]
        have : e ≤ q - 1 := by rw [he]; exact Nat.le_mul_of_pos_left e hn
        rw [show 32 * (2 * width) = 64 * width by ring]
        omega
      omega
    · exact packLimbs_bound _ fun e he => Nat.digits_lt_base (by norm_num) he
  · intro hd
    unfold primitiveRoot
    rw [if_neg (by omega), if_pos (fun h => hd (Nat.dvd_of_mod_eq_zero h))]

omit [DecidableEq F] in
/-- C58: `fft` lists the values at the powers of the root it returns, a primitive one. -/
theorem C58_fft (q width : Nat) (g : F) (pow : F → List Nat → Res F) (hq : 1 < q) (hq' : q < 2 ^ (64 * width))
    (hg : IsPrimitiveRoot g (q - 1))
    (hpow : ∀ x l, l.length ≤ width → (∀ e ∈ l, e < 2 ^ 64) → pow x l = .ok (x ^ Nat.ofDigits (2 ^ 64) l))
    (p : List F) (n : Nat) (hn : ∃ k, n = 2 ^ k ∨ n = 3 * 2 ^ k) (hp : p ≠ []) (hlen : p.length ≤ n) :
    (n ∣ q - 1 → ∃ root, fft q g pow p n = .ok (some ((List.range n).map fun i => (toPoly p).eval (root ^ i), root)) ∧
      IsPrimitiveRoot root n) ∧
    (¬ n ∣ q - 1 → fft q g pow p n = .ok none) := by
  have hpos : 0 < n := by
    obtain ⟨k, hk | hk⟩ := hn <;> rw [hk] <;> positivity
  obtain ⟨h1, h2⟩ := C58_primitive_root q width g pow hq hq' hg hpow n hpos
  have hv := (validSize_iff n).2 hn
  unfold fft
  rw [if_neg (by rw [hv]; simp)]
  constructor
  · intro hd
    obtain ⟨root, hr1, hr2⟩ := h1 hd
    refine ⟨root, ?_, hr2⟩
    rw [hr1]
    show (fftWithUnityRoot p root n).bind _ = _
    rw [C58_fft_evaluates p root n hn hr2 hp hlen]
    rfl
  · intro hd
    rw [h2 hd]
    rfl

end

/-- 7, the `multiplicative_generator` of the BLS12-381 scalar field, generates its multiplicative group -/
theorem bls_generator : IsPrimitiveRoot (7 : ZMod Bls.r) (Bls.r - 1) := by
  have hpos : 0 < Bls.r - 1 := by norm_num
  have : orderOf (7 : ZMod Bls.r) = Bls.r - 1 := by
    refine orderOf_eq_of_pow_and_pow_div_prime hpos Bls.pow_full ?_
    intro q hq hd
    exact Bls.pow_factor q hq hd
  rw [← this]
  exact IsPrimitiveRoot.orderOf _

/-- C58 for the scalar field of BLS12-381 and the exponentiation of algebra/src/bls12_381.rs:328-333: every size `2^k`, `k ≤ 32`,
and `3·2^k` has its transform. -/
theorem C58_bls (arkPow : ZMod Bls.r → List Nat → ZMod Bls.r) (hark : ∀ x l, arkPow x l = x ^ Nat.ofDigits (2 ^ 64) l)
    (p : List (ZMod Bls.r)) (n k : Nat) (hk : k ≤ 32) (hn : n = 2 ^ k ∨ n = 3 * 2 ^ k) (hp : p ≠ []) (hlen : p.length ≤ n) :
    ∃ root, fft Bls.r 7 (Pow.powArray arkPow 4) p n =
        .ok (some ((List.range n).map fun i => (toPoly p).eval (root ^ i), root)) ∧ IsPrimitiveRoot root n := by
  refine (C58_fft Bls.r 4 7 _ (by norm_num) (by norm_num) bls_generator
    (fun x l hl _ => Pow.C30_pow_array_partial arkPow hark 4 x l hl) p n ⟨k, hn⟩ hp hlen).1 ?_
  have h : 3 * 2 ^ 32 ∣ Bls.r - 1 := by norm_num
  refine dvd_trans ?_ h
  rcases hn with rfl | rfl
  · exact dvd_trans (pow_dvd_pow 2 hk) (Dvd.intro_left 3 rfl)
  · exact Nat.mul_dvd_mul_left 3 (pow_dvd_pow 2 hk)

/-! ### The hypotheses are met -/

/-- 2 is a primitive third, 6 a primitive second and 3 a primitive sixth root of unity modulo 7 -/
theorem three_primitive : IsPrimitiveRoot (3 : ZMod 7) 6 := by
  refine IsPrimitiveRoot.mk_of_lt _ (by norm_num) (by decide) ?_
  intro l h1 h2
  have : l = 1 ∨ l = 2 ∨ l = 3 ∨ l = 4 ∨ l = 5 := by omega
  rcases this with rfl | rfl | rfl | rfl | rfl <;> decide

example : fftWithUnityRoot ([1, 2, 3, 0, 5] : List (ZMod 7)) 3 6 =
    .ok ((List.range 6).map fun i => (toPoly ([1, 2, 3, 0, 5] : List (ZMod 7))).eval (3 ^ i)) :=
  C58_fft_evaluates _ _ _ ⟨1, Or.inr rfl⟩ three_primitive (by simp) (by simp)

example : (cosetFft ([1, 2, 3, 0, 5] : List (ZMod 7)) 3 6 4).bind (fun values => cosetFfti 3 values 4⁻¹ 6) = .ok [1, 2, 3, 0, 5] :=
  C58_coset_ffti_inverts _ _ _ _ (by decide) ⟨1, Or.inr rfl⟩ (by norm_num) three_primitive ⟨by simp, fun _ => by decide⟩ (by simp)

/-- a degree above `n`: four values for two points -/
example (values : List (ZMod 7)) (h : fftWithUnityRoot ([1, 2, 3, 4] : List (ZMod 7)) 6 2 = .ok values) : values.length = 4 :=
  (C58_high_degree _ _ _ ⟨1, Or.inl rfl⟩ (by simp)).2 (by simp) values h

end Verif.Poly
