import Mathlib.Algebra.Polynomial.FieldDivision
import Mathlib.Algebra.Polynomial.Eval.Degree
import Mathlib.Algebra.Polynomial.BigOperators
import Mathlib.Algebra.Polynomial.Roots
import Mathlib.Tactic.Ring
import Mathlib.Tactic.LinearCombination
import Mathlib.Tactic.FieldSimp
import Mathlib.Data.ZMod.Basic
import Mathlib.Algebra.Field.ZMod
import Mathlib.Tactic.NormNum.Prime
import Verif.Poly.Model

/-!
C57: the operations of `FpPolynomial` are the operations of the polynomial ring.

The specification is `toPoly`, the polynomial of Mathlib with the given coefficients.
-/

namespace Verif.Poly

open Polynomial

section
variable {F : Type} [Field F]

/-- the polynomial with the coefficients `l`, low order first -/
noncomputable def toPoly : List F → F[X]
  | [] => 0
  | a :: l => C a + X * toPoly l

/-- no high order zero coefficients, and at least one coefficient -/
def Normal (l : List F) : Prop := l ≠ [] ∧ (2 ≤ l.length → l.getLast? ≠ some 0)

theorem toPoly_append (l m : List F) : toPoly (l ++ m) = toPoly l + X ^ l.length * toPoly m := by
  induction l with
  | nil => simp [toPoly]
  | cons a l ih =>
    rw [List.cons_append, toPoly, toPoly, ih, List.length_cons, pow_succ]
    ring

theorem coeff_toPoly (l : List F) (n : Nat) : (toPoly l).coeff n = (l[n]?).getD 0 := by
  induction l generalizing n with
  | nil => simp [toPoly]
  | cons a l ih =>
    cases n with
    | zero => simp [toPoly]
    | succ n => simp [toPoly, coeff_X_mul, ih, coeff_C_succ]

theorem toPoly_replicate (n : Nat) : toPoly (List.replicate n (0 : F)) = 0 := by
  induction n with
  | zero => rfl
  | succ n ih => rw [List.replicate_succ, toPoly, ih]; simp

theorem toPoly_degree_lt (l : List F) : (toPoly l).degree < l.length := by
  rw [degree_lt_iff_coeff_zero]
  intro m hm
  rw [coeff_toPoly, List.getElem?_eq_none (by simpa using hm)]
  rfl

theorem toPoly_set (l : List F) (i : Nat) (x : F) (h : i < l.length) :
    toPoly (l.set i x) = toPoly l + C (x - l[i]) * X ^ i := by
  induction l generalizing i with
  | nil => simp at h
  | cons a l ih =>
    cases i with
    | zero => simp only [List.set_cons_zero, toPoly, List.getElem_cons_zero, C_sub]; ring
    | succ i =>
      simp only [List.set_cons_succ, toPoly, List.getElem_cons_succ, ih i (by simpa using h)]
      ring

/-- two coefficient vectors of the same length are equal if their polynomials are -/
theorem toPoly_inj {l m : List F} (hl : l.length = m.length) (h : toPoly l = toPoly m) : l = m := by
  refine List.ext_getElem? fun n => ?_
  have := congrArg (fun p => p.coeff n) h
  simp only [coeff_toPoly] at this
  by_cases hn : n < l.length
  · rw [List.getElem?_eq_getElem hn, List.getElem?_eq_getElem (hl ▸ hn)] at this ⊢
    simpa using this
  · rw [List.getElem?_eq_none (by omega), List.getElem?_eq_none (by omega)]

theorem toPoly_map_mul (l : List F) (s : F) : toPoly (l.map fun c => c * s) = toPoly l * C s := by
  induction l with
  | nil => simp [toPoly]
  | cons a l ih => rw [List.map_cons, toPoly, toPoly, ih, C_mul]; ring

theorem toPoly_map_neg (l : List F) : toPoly (l.map fun x => -x) = -toPoly l := by
  induction l with
  | nil => simp [toPoly]
  | cons a l ih => rw [List.map_cons, toPoly, toPoly, ih, C_neg]; ring

theorem toPoly_addRaw (p q : List F) : toPoly (addRaw p q) = toPoly p + toPoly q := by
  induction p generalizing q with
  | nil => cases q <;> simp [addRaw, toPoly]
  | cons a p ih =>
    cases q with
    | nil => simp [addRaw, toPoly]
    | cons b q => rw [addRaw, toPoly, toPoly, toPoly, ih, C_add]; ring

theorem addRaw_length (p q : List F) : (addRaw p q).length = max p.length q.length := by
  induction p generalizing q with
  | nil => cases q <;> simp [addRaw]
  | cons a p ih =>
    cases q with
    | nil => simp [addRaw]
    | cons b q => simp [addRaw, ih]

theorem toPoly_subRaw (p q : List F) : toPoly (subRaw p q) = toPoly p - toPoly q := by
  induction p generalizing q with
  | nil =>
    cases q with
    | nil => simp [subRaw, toPoly]
    | cons b q => rw [subRaw, toPoly_map_neg]; simp [toPoly]; simp
  | cons a p ih =>
    cases q with
    | nil => simp [subRaw, toPoly]
    | cons b q => rw [subRaw, toPoly, toPoly, toPoly, ih, C_sub]; ring

theorem subRaw_length (p q : List F) : (subRaw p q).length = max p.length q.length := by
  induction p generalizing q with
  | nil => cases q <;> simp [subRaw]
  | cons a p ih =>
    cases q with
    | nil => simp [subRaw]
    | cons b q => simp [subRaw, ih]

theorem toPoly_mulVarLoop (s : F) (l : List F) (r : F) :
    toPoly (mulVarLoop s l r) = C r * (toPoly l).comp (C s * X) := by
  induction l generalizing r with
  | nil => simp [mulVarLoop, toPoly]
  | cons a l ih =>
    rw [mulVarLoop, toPoly, toPoly, ih, add_comp, mul_comp, X_comp, C_comp, C_mul, C_mul]
    ring

variable [DecidableEq F]

theorem trimRev_spec (l : List F) :
    ∃ n, l = List.replicate n 0 ++ trimRev l ∧ (l ≠ [] → trimRev l ≠ []) ∧
      (2 ≤ (trimRev l).length → (trimRev l).head? ≠ some 0) := by
  induction l with
  | nil => exact ⟨0, rfl, fun h => absurd rfl h, fun h => by simp [trimRev] at h⟩
  | cons a l ih =>
    cases l with
    | nil => exact ⟨0, rfl, fun _ => by simp [trimRev], fun h => by simp [trimRev] at h⟩
    | cons b l =>
      unfold trimRev
      by_cases ha : a = 0
      · rw [if_pos ha]
        obtain ⟨n, h1, h2, h3⟩ := ih
        exact ⟨n + 1, by rw [List.replicate_succ, List.cons_append, ← h1, ha], fun _ => h2 (by simp), h3⟩
      · rw [if_neg ha]
        exact ⟨0, rfl, fun _ => by simp, fun _ => by simpa using ha⟩

theorem trim_spec (l : List F) :
    ∃ n, l = trim l ++ List.replicate n 0 ∧ (l ≠ [] → Normal (trim l)) := by
  obtain ⟨n, h1, h2, h3⟩ := trimRev_spec l.reverse
  refine ⟨n, ?_, fun hl => ⟨?_, fun h => ?_⟩⟩
  · have := congrArg List.reverse h1
    rw [List.reverse_reverse, List.reverse_append, List.reverse_replicate] at this
    exact this
  · simpa [trim] using h2 (by simpa using hl)
  · rw [trim, List.getLast?_reverse]
    exact h3 (by simpa [trim] using h)

theorem toPoly_trim (l : List F) : toPoly (trim l) = toPoly l := by
  obtain ⟨n, h, -⟩ := trim_spec l
  conv_rhs => rw [h]
  rw [toPoly_append, toPoly_replicate, mul_zero, add_zero]

theorem normal_trim {l : List F} (h : l ≠ []) : Normal (trim l) := (trim_spec l).choose_spec.2 h

/-- the degree of a normalised vector is the degree of its polynomial -/
theorem natDegree_normal {l : List F} (h : Normal l) : (toPoly l).natDegree = l.length - 1 := by
  by_cases h2 : 2 ≤ l.length
  · have hlast := h.2 h2
    apply le_antisymm
    · rw [natDegree_le_iff_coeff_eq_zero]
      intro n hn
      rw [coeff_toPoly, List.getElem?_eq_none (by omega)]
      rfl
    · apply le_natDegree_of_ne_zero
      rw [coeff_toPoly, ← List.getLast?_eq_getElem?]
      cases hl : l.getLast? with
      | none => rw [List.getLast?_eq_none_iff] at hl; simp [hl] at h2
      | some a => rw [hl] at hlast; simpa using hlast
  · match l, h.1, h2 with
    | [a], _, _ => simp [toPoly]
    | a :: b :: l, _, h2 => simp at h2

/-! ### C57 -/

/-- C57: `eval` evaluates the polynomial. -/
theorem C57_eval (l : List F) (x : F) : eval l x = (toPoly l).eval x := by
  have : ∀ (l : List F) (acc v : F), evalLoop x l acc v = acc + v * (toPoly l).eval x := by
    intro l
    induction l with
    | nil => intro acc v; simp [evalLoop, toPoly]
    | cons a l ih =>
      intro acc v
      rw [evalLoop, ih, toPoly, eval_add, eval_C, eval_mul, eval_X]
      ring
  rw [eval, this]
  simp

/-- C57: the constructors and all arithmetic operations compute in the polynomial ring. -/
theorem C57_ring_operations (p q : List F) (s : F) :
    toPoly (fromCoefs p) = toPoly p ∧ toPoly (zeroPoly : List F) = 0 ∧ toPoly (onePoly : List F) = 1 ∧
    toPoly (add p q) = toPoly p + toPoly q ∧ toPoly (sub p q) = toPoly p - toPoly q ∧ toPoly (neg p) = -toPoly p ∧
    toPoly (mulScalar p s) = C s * toPoly p ∧ toPoly (mulVar p s) = (toPoly p).comp (C s * X) := by
  refine ⟨toPoly_trim p, ?_, ?_, ?_, ?_, ?_, ?_, ?_⟩
  · rw [zeroPoly, fromCoefs, toPoly_trim]; simp [toPoly]
  · rw [onePoly, fromCoefs, toPoly_trim]; simp [toPoly]
  · rw [add, toPoly_trim, toPoly_addRaw]
  · rw [sub, toPoly_trim, toPoly_subRaw]
  · rw [neg, mulScalar, toPoly_trim, toPoly_map_mul, C_neg, C_1]; ring
  · rw [mulScalar, toPoly_trim, toPoly_map_mul, mul_comm]
  · rw [mulVar, toPoly_trim, toPoly_mulVarLoop, C_1, one_mul]

theorem mulVarLoop_length (s : F) (l : List F) (r : F) : (mulVarLoop s l r).length = l.length := by
  induction l generalizing r with
  | nil => rfl
  | cons a l ih => simp [mulVarLoop, ih]

/-- C57: the results are normalised as soon as one operand has a coefficient. -/
theorem C57_results_normal (p q : List F) (s : F) (hp : p ≠ []) :
    Normal (fromCoefs p) ∧ Normal (zeroPoly : List F) ∧ Normal (onePoly : List F) ∧ Normal (add p q) ∧ Normal (add q p) ∧
      Normal (sub p q) ∧ Normal (sub q p) ∧ Normal (neg p) ∧ Normal (mulScalar p s) ∧ Normal (mulVar p s) := by
  have hlen := List.length_pos_iff.2 hp
  refine ⟨normal_trim hp, normal_trim (by simp), normal_trim (by simp), normal_trim ?_, normal_trim ?_, normal_trim ?_,
    normal_trim ?_, normal_trim (by simpa using hp), normal_trim (by simpa using hp), normal_trim ?_⟩
  · rw [← List.length_pos_iff, addRaw_length]; omega
  · rw [← List.length_pos_iff, addRaw_length]; omega
  · rw [← List.length_pos_iff, subRaw_length]; omega
  · rw [← List.length_pos_iff, subRaw_length]; omega
  · rw [← List.length_pos_iff, mulVarLoop_length]; omega

/-- C57: normalised vectors are equal exactly if their polynomials are. -/
theorem C57_equality {p q : List F} (hp : Normal p) (hq : Normal q) : p = q ↔ toPoly p = toPoly q := by
  refine ⟨fun h => by rw [h], fun h => toPoly_inj ?_ h⟩
  have h1 := natDegree_normal hp
  have h2 := natDegree_normal hq
  rw [h] at h1
  have l1 := List.length_pos_iff.2 hp.1
  have l2 := List.length_pos_iff.2 hq.1
  omega

/-- C57: `degree` and `is_zero` are the degree and the zero test; `is_zero` panics only for an empty vector. -/
theorem C57_degree_and_zero {p : List F} (hp : Normal p) :
    degree p = (toPoly p).natDegree ∧ isZero p = .ok (decide (p = [0])) ∧ (p = [0] ↔ toPoly p = 0) ∧
      isZero ([] : List F) = .panic := by
  have hlen := List.length_pos_iff.2 hp.1
  refine ⟨?_, ?_, ?_, rfl⟩
  · rw [natDegree_normal hp, degree, if_neg (by omega)]
  · match p, hp.1 with
    | [a], _ => simp [isZero, degree]
    | a :: b :: l, _ => simp [isZero, degree]
  · rw [C57_equality hp (show Normal [(0 : F)] from ⟨by simp, fun h => by simp at h⟩)]
    simp [toPoly]

/-- C57: adding to one coefficient. -/
theorem C57_add_coef (p : List F) (coef : F) (order : Nat) (h : p ≠ [] ∨ 0 < order) :
    ∃ q, addCoef p coef order = .ok q ∧ toPoly q = toPoly p + C coef * X ^ order ∧ Normal q := by
  unfold addCoef
  have hp' : ∃ p', (if degree p < order then p ++ List.replicate (order + 1 - p.length) 0 else p) = p' ∧
      order < p'.length ∧ toPoly p' = toPoly p := by
    refine ⟨_, rfl, ?_, ?_⟩
    · by_cases hd : degree p < order
      · rw [if_pos hd, List.length_append, List.length_replicate]; omega
      · rw [if_neg hd]
        unfold degree at hd
        by_cases h0 : p.length = 0
        · rw [if_pos h0] at hd
          rw [List.length_eq_zero_iff] at h0
          rcases h with h | h
          · exact absurd h0 h
          · exact absurd h hd
        · rw [if_neg h0] at hd; omega
    · by_cases hd : degree p < order
      · rw [if_pos hd, toPoly_append, toPoly_replicate, mul_zero, add_zero]
      · rw [if_neg hd]
  obtain ⟨p', he, hlt, htp⟩ := hp'
  simp only [he]
  rw [List.getElem?_eq_getElem hlt]
  refine ⟨_, rfl, ?_, normal_trim ?_⟩
  · rw [toPoly_trim, toPoly_set _ _ _ hlt, htp, add_sub_cancel_left]
  · rw [← List.length_pos_iff, List.length_set]; omega

/-- C57: `from_zeroes` is the product of the linear factors. -/
theorem C57_from_zeroes (zs : List F) :
    toPoly (fromZeroes zs) = (zs.map fun z => X - C z).prod ∧ Normal (fromZeroes zs) ∧
      ∀ x, eval (fromZeroes zs) x = 0 ↔ x ∈ zs := by
  have hloop : ∀ (zs : List F) (r : List F), r ≠ [] → toPoly (zs.foldl zeroesStep r) = toPoly r * (zs.map fun z => X - C z).prod ∧
      zs.foldl zeroesStep r ≠ [] := by
    intro zs
    induction zs with
    | nil => intro r hr; simpa using hr
    | cons z zs ih =>
      intro r hr
      have hs : zeroesStep r z ≠ [] := ((C57_results_normal (0 :: r) (mulScalar r z) 0 (by simp)).2.2.2.2.2.1).1
      obtain ⟨h1, h2⟩ := ih _ hs
      rw [List.foldl_cons]
      refine ⟨?_, h2⟩
      rw [h1, zeroesStep, (C57_ring_operations _ _ 0).2.2.2.2.1, (C57_ring_operations r r z).2.2.2.2.2.2.1, toPoly, List.map_cons,
        List.prod_cons, C_0]
      ring
  have h1 : (onePoly : List F) ≠ [] := (normal_trim (by simp)).1
  obtain ⟨ha, hb⟩ := hloop zs onePoly h1
  have hprod : toPoly (fromZeroes zs) = (zs.map fun z => X - C z).prod := by
    rw [fromZeroes, toPoly_trim, ha, (C57_ring_operations ([] : List F) [] 0).2.2.1, one_mul]
  refine ⟨hprod, normal_trim hb, fun x => ?_⟩
  rw [C57_eval, hprod, eval_list_prod, List.prod_eq_zero_iff]
  simp only [List.map_map, List.mem_map, Function.comp_apply, eval_sub, eval_X, eval_C]
  constructor
  · rintro ⟨z, hz, h⟩
    rwa [sub_eq_zero.1 h]
  · intro h
    exact ⟨x, h, sub_self x⟩

/-! ### division -/

theorem subAt_spec (ds : List F) (rem : List F) (i : Nat) (q : F) (h : i + ds.length ≤ rem.length) :
    ∃ rem', subAt rem i q ds = .ok rem' ∧ rem'.length = rem.length ∧
      toPoly rem' = toPoly rem - C q * X ^ i * toPoly ds := by
  induction ds generalizing rem i with
  | nil => exact ⟨rem, rfl, rfl, by simp [toPoly]⟩
  | cons d ds ih =>
    rw [List.length_cons] at h
    have hi : i < rem.length := by omega
    obtain ⟨rem', h1, h2, h3⟩ := ih (rem.set i (rem[i] - q * d)) (i + 1) (by rw [List.length_set]; omega)
    refine ⟨rem', ?_, by rw [h2, List.length_set], ?_⟩
    · rw [subAt, List.getElem?_eq_getElem hi]
      exact h1
    · rw [h3, toPoly_set _ _ _ hi, toPoly, show rem[i] - q * d - rem[i] = -(q * d) by ring, C_neg, C_mul, pow_succ]
      ring

theorem divLoop_spec (d : List F) (b : F) (hb : d.getLast? = some b) (hb0 : b ≠ 0) (p : F[X]) (n : Nat) (quo rem : List F)
    (hn : n ≤ quo.length) (hq : ∀ i, i < n → quo[i]? = some 0) (hlen : n + d.length - 1 ≤ rem.length)
    (hz : ∀ j, n + d.length - 1 ≤ j → (toPoly rem).coeff j = 0)
    (hinv : toPoly quo * toPoly d + toPoly rem = p) :
    ∃ quo' rem', divLoop d b⁻¹ n quo rem = .ok (quo', rem') ∧ quo'.length = quo.length ∧ rem'.length = rem.length ∧
      (∀ j, d.length - 1 ≤ j → (toPoly rem').coeff j = 0) ∧ toPoly quo' * toPoly d + toPoly rem' = p := by
  have hd : d ≠ [] := by rintro rfl; simp at hb
  have hdl := List.length_pos_iff.2 hd
  induction n generalizing quo rem with
  | zero => exact ⟨quo, rem, rfl, rfl, rfl, fun j hj => hz j (by omega), hinv⟩
  | succ i ih =>
    have hi : i + d.length - 1 < rem.length := by omega
    obtain ⟨rem', h1, h2, h3⟩ := subAt_spec d rem i (b⁻¹ * rem[i + d.length - 1]) (by omega)
    have hlead : (toPoly d).coeff (d.length - 1) = b := by
      rw [coeff_toPoly, ← List.getLast?_eq_getElem?, hb]; rfl
    have hcoeff : ∀ j, (toPoly rem').coeff j = (toPoly rem).coeff j - b⁻¹ * rem[i + d.length - 1] *
        (if i ≤ j then (toPoly d).coeff (j - i) else 0) := by
      intro j
      rw [h3, coeff_sub, mul_assoc, coeff_C_mul, coeff_X_pow_mul']
    have hz' : ∀ j, i + d.length - 1 ≤ j → (toPoly rem').coeff j = 0 := by
      intro j hj
      rw [hcoeff, if_pos (by omega)]
      by_cases hje : j = i + d.length - 1
      · rw [hje, show i + d.length - 1 - i = d.length - 1 by omega, hlead, coeff_toPoly, List.getElem?_eq_getElem hi,
          Option.getD_some, mul_right_comm, inv_mul_cancel₀ hb0, one_mul, sub_self]
      · rw [hz j (by omega), coeff_toPoly d, List.getElem?_eq_none (by omega)]
        simp
    have hiq : i < quo.length := by omega
    have hqi : quo[i] = 0 := by
      have := hq i (by omega)
      rw [List.getElem?_eq_getElem hiq] at this
      simpa using this
    obtain ⟨quo', rem'', g1, g2, g3, g4, g5⟩ := ih (quo.set i (b⁻¹ * rem[i + d.length - 1])) rem'
      (by rw [List.length_set]; omega)
      (fun j hj => by rw [List.getElem?_set_ne (by omega)]; exact hq j (by omega)) (by omega) hz' (by
        rw [toPoly_set _ _ _ hiq, hqi, h3, ← hinv, sub_zero]; ring)
    refine ⟨quo', rem'', ?_, by rw [g2, List.length_set], by rw [g3, h2], g4, g5⟩
    rw [divLoop, List.getElem?_eq_getElem hi]
    simp only [h1, Res.bind_ok]
    rw [if_pos hiq]
    exact g1

theorem toPoly_take (l : List F) (n : Nat) (hn : n ≤ l.length) (hz : ∀ j, n ≤ j → (toPoly l).coeff j = 0) :
    toPoly (l.take n) = toPoly l := by
  ext j
  rw [coeff_toPoly, coeff_toPoly]
  by_cases hj : j < n
  · rw [List.getElem?_take_of_lt hj]
  · have := hz j (by omega)
    rw [coeff_toPoly] at this
    rw [this, List.getElem?_eq_none (by rw [List.length_take]; omega)]
    rfl

omit [DecidableEq F] in
theorem div_mod_unique {p q r d : F[X]} (h : p = q * d + r) (hr : r.degree < d.degree) (hd : d ≠ 0) :
    q = p / d ∧ r = p % d := by
  have e : p = d * (p / d) + p % d := (EuclideanDomain.div_add_mod p d).symm
  have hlt : (p % d).degree < d.degree := EuclideanDomain.mod_lt p hd
  have key : d * (q - p / d) = p % d - r := by linear_combination e - h
  have hz : q - p / d = 0 := by
    by_contra hne
    have h1 : d.degree ≤ (d * (q - p / d)).degree := degree_le_mul_left d hne
    rw [key] at h1
    exact absurd (lt_of_le_of_lt (degree_sub_le _ _) (max_lt hlt hr)) (not_lt.2 h1)
  rw [hz, mul_zero] at key
  exact ⟨sub_eq_zero.1 hz, (sub_eq_zero.1 key.symm).symm⟩

/-- C57: division by a polynomial with a non-zero last coefficient succeeds and is division with remainder in the polynomial
ring; quotient and remainder of normalised vectors are normalised. -/
theorem C57_div_rem (p d : List F) (b : F) (hb : d.getLast? = some b) (hb0 : b ≠ 0) :
    ∃ q r, divRem p d = .ok (q, r) ∧ toPoly p = toPoly q * toPoly d + toPoly r ∧ (toPoly r).degree < (toPoly d).degree ∧
      toPoly q = toPoly p / toPoly d ∧ toPoly r = toPoly p % toPoly d ∧ (Normal p → Normal q ∧ Normal r) := by
  have hd : d ≠ [] := by rintro rfl; simp at hb
  have hdl := List.length_pos_iff.2 hd
  have hlead : (toPoly d).coeff (d.length - 1) = b := by
    rw [coeff_toPoly, ← List.getLast?_eq_getElem?, hb]; rfl
  have hdeg : ((d.length - 1 : Nat) : WithBot Nat) ≤ (toPoly d).degree := le_degree_of_ne_zero (by rw [hlead]; exact hb0)
  suffices H : ∃ q r, divRem p d = .ok (q, r) ∧ toPoly p = toPoly q * toPoly d + toPoly r ∧
      (toPoly r).degree < (toPoly d).degree ∧ (Normal p → Normal q ∧ Normal r) by
    obtain ⟨q, r, h1, h2, h3, h4⟩ := H
    have hd0 : toPoly d ≠ 0 := by
      intro h
      rw [h] at hlead
      exact hb0 (by simpa using hlead.symm)
    obtain ⟨e1, e2⟩ := div_mod_unique h2 h3 hd0
    exact ⟨q, r, h1, h2, h3, e1, e2, h4⟩
  unfold divRem
  simp only
  by_cases hl : d.length > p.length
  · rw [if_pos hl]
    refine ⟨_, _, rfl, ?_, ?_, fun hn => ⟨normal_trim (by simp), hn⟩⟩
    · rw [(C57_ring_operations p p 0).2.1]; ring
    · refine lt_of_lt_of_le (toPoly_degree_lt p) (le_trans ?_ hdeg)
      exact_mod_cast (by omega : p.length ≤ d.length - 1)
  · rw [if_neg hl, hb]
    simp only
    rw [if_neg hb0]
    obtain ⟨quo, rem, h1, h2, h3, h4, h5⟩ := divLoop_spec d b hb hb0 (toPoly p) (p.length - d.length + 1)
      (List.replicate (p.length - d.length + 1) 0) p (by simp) (fun i hi => by rw [List.getElem?_replicate, if_pos hi]) (by omega)
      (fun j hj => by rw [coeff_toPoly, List.getElem?_eq_none (by omega)]; rfl) (by rw [toPoly_replicate]; ring)
    rw [h1]
    simp only [Res.bind_ok]
    have htake : toPoly (rem.take (rem.length - (p.length - d.length + 1))) = toPoly rem :=
      toPoly_take rem _ (by omega) (fun j hj => h4 j (by omega))
    have hif : toPoly (if (rem.take (rem.length - (p.length - d.length + 1))).isEmpty then [0] else
        rem.take (rem.length - (p.length - d.length + 1))) = toPoly rem := by
      by_cases he : (rem.take (rem.length - (p.length - d.length + 1))).isEmpty
      · rw [if_pos he, ← htake, List.isEmpty_iff.1 he]; simp [toPoly]
      · rw [if_neg he, htake]
    have hne : (if (rem.take (rem.length - (p.length - d.length + 1))).isEmpty then [0] else
        rem.take (rem.length - (p.length - d.length + 1))) ≠ [] := by
      by_cases he : (rem.take (rem.length - (p.length - d.length + 1))).isEmpty
      · rw [if_pos he]; simp
      · rw [if_neg he]; simpa using he
    refine ⟨_, _, rfl, ?_, ?_, fun _ => ⟨normal_trim (normal_trim ?_).1, normal_trim (normal_trim hne).1⟩⟩
    · rw [toPoly_trim, toPoly_trim, fromCoefs, toPoly_trim, fromCoefs, toPoly_trim, hif, h5]
    · rw [toPoly_trim, fromCoefs, toPoly_trim, hif]
      refine lt_of_lt_of_le ?_ hdeg
      rw [degree_lt_iff_coeff_zero]
      intro m hm
      exact h4 m (by exact_mod_cast hm)
    · rw [← List.length_pos_iff, h2]; simp

/-- C57: otherwise `div_rem` panics, unless the dividend has fewer coefficients. -/
theorem C57_div_rem_panics (p d : List F) (hd : d.getLast? = none ∨ d.getLast? = some 0) (h : d.length ≤ p.length) :
    divRem p d = .panic := by
  unfold divRem
  simp only
  rw [if_neg (by omega)]
  rcases hd with hd | hd
  · rw [hd]
  · rw [hd]
    simp

end

/-! ### the hypotheses are met -/

instance : Fact (Nat.Prime 7) := ⟨by norm_num⟩

/-- division of `1 + X + X²` by `1 + 2·X` over the field of seven elements -/
example : ∃ q r, divRem (F := ZMod 7) [1, 1, 1] [1, 2] = .ok (q, r) ∧
    toPoly [(1 : ZMod 7), 1, 1] = toPoly q * toPoly [1, 2] + toPoly r ∧ (toPoly r).degree < (toPoly [(1 : ZMod 7), 2]).degree ∧
    toPoly q = toPoly [(1 : ZMod 7), 1, 1] / toPoly [1, 2] ∧ toPoly r = toPoly [(1 : ZMod 7), 1, 1] % toPoly [1, 2] ∧
    (Normal [(1 : ZMod 7), 1, 1] → Normal q ∧ Normal r) :=
  C57_div_rem _ _ 2 rfl (by decide)

example : divRem (F := ZMod 7) [1, 1, 1] [1, 2] = .ok ([2, 4], [6]) := by decide +kernel

example : add (F := ZMod 7) [1, 2, 3] [0, 1, 4] = [1, 3] := by decide

example : fromZeroes (F := ZMod 7) [1, 2] = [2, 4, 1] := by decide

end Verif.Poly
