import Mathlib.LinearAlgebra.Dual.Lemmas
import Mathlib.Algebra.Polynomial.Roots
import Mathlib.Tactic.LinearCombination
import Mathlib.Tactic.Module
import Mathlib.Tactic.Abel
import Verif.Poly.Kzg

/-!
C59: the KZG polynomial commitment.
-/

namespace Verif.Poly

open Polynomial
open Verif.AnonCreds (Pairing)

section basics
variable {F : Type} [Field F] [DecidableEq F]

theorem tp_fromCoefs (p : List F) : toPoly (fromCoefs p) = toPoly p := (C57_ring_operations p p 0).1
theorem tp_zero : toPoly (zeroPoly : List F) = 0 := (C57_ring_operations (F := F) [] [] 0).2.1
theorem tp_add (p q : List F) : toPoly (add p q) = toPoly p + toPoly q := (C57_ring_operations p q 0).2.2.2.1
theorem tp_sub (p q : List F) : toPoly (sub p q) = toPoly p - toPoly q := (C57_ring_operations p q 0).2.2.2.2.1
theorem tp_mulScalar (p : List F) (s : F) : toPoly (mulScalar p s) = C s * toPoly p := (C57_ring_operations p p s).2.2.2.2.2.2.1
theorem tp_const (a : F) : toPoly [a] = C a := by simp [toPoly]
theorem tp_linear (x : F) : toPoly [-x, 1] = X - C x := by simp [toPoly]; ring

theorem normal_linear (x : F) : Normal [-x, 1] := ⟨by simp, fun _ => by simp⟩

theorem fromCoefs_linear (x : F) : fromCoefs [-x, 1] = [-x, 1] :=
  (C57_equality (normal_trim (by simp)) (normal_linear x)).2 (tp_fromCoefs _)

theorem fromZeroes_one (x : F) : fromZeroes [x] = [-x, 1] := by
  obtain ⟨h1, h2, -⟩ := C57_from_zeroes [x]
  refine (C57_equality h2 (normal_linear x)).2 ?_
  rw [h1, tp_linear]; simp

theorem normal_length_le {p : List F} (hp : Normal p) {n : Nat} (h : (toPoly p).natDegree ≤ n) : p.length ≤ n + 1 := by
  have := natDegree_normal hp
  omega

theorem natDegree_lt_length {p : List F} (hp : p ≠ []) : (toPoly p).natDegree < p.length := by
  by_cases h0 : toPoly p = 0
  · rw [h0, natDegree_zero]; exact List.length_pos_iff.2 hp
  · exact (natDegree_lt_iff_degree_lt h0).2 (toPoly_degree_lt p)

/-- exact division by a linear factor -/
theorem div_linear {p : List F} (hp : Normal p) {x : F} (hx : (toPoly p).eval x = 0) :
    ∃ q, divRem p [-x, 1] = .ok (q, [0]) ∧ toPoly p = toPoly q * (X - C x) ∧ Normal q ∧ q.length ≤ p.length := by
  obtain ⟨q, r, h1, h2, h3, -, -, h4⟩ := C57_div_rem p [-x, 1] 1 rfl one_ne_zero
  obtain ⟨hq, hr⟩ := h4 hp
  rw [tp_linear] at h2 h3
  have hr0 : toPoly r = 0 := by
    rw [degree_X_sub_C] at h3
    have hc := eq_C_of_degree_le_zero (Nat.WithBot.lt_one_iff_le_zero.1 h3)
    have := congrArg (Polynomial.eval x) h2
    rw [hx, eval_add, eval_mul, eval_sub, eval_X, eval_C, sub_self, mul_zero, zero_add, hc, eval_C] at this
    rw [hc, ← this, C_0]
  have hr' : r = [0] := (C57_degree_and_zero hr).2.2.1.2 hr0
  subst hr'
  rw [hr0, add_zero] at h2
  refine ⟨q, h1, h2, hq, ?_⟩
  have e1 := natDegree_normal hp
  have e2 := natDegree_normal hq
  have l1 := List.length_pos_iff.2 hp.1
  have l2 := List.length_pos_iff.2 hq.1
  by_cases h0 : toPoly q = 0
  · rw [h0, natDegree_zero] at e2; omega
  · rw [h2, natDegree_mul h0 (X_sub_C_ne_zero x), natDegree_X_sub_C] at e1
    omega

theorem isZero_zero : isZero [(0 : F)] = .ok true := by simp [isZero, degree]

/-- `Σ aⁱ • lᵢ` -/
def combine {M : Type} [AddCommGroup M] [Module F M] (a : F) : List M → M
  | [] => 0
  | x :: l => x + a • combine a l

omit [DecidableEq F] in
theorem combine_eq_eval (a : F) (l : List F) : combine a l = (toPoly l).eval a := by
  induction l with
  | nil => simp [combine, toPoly]
  | cons x l ih => rw [combine, ih, toPoly, eval_add, eval_C, eval_mul, eval_X, smul_eq_mul]

omit [DecidableEq F] in
theorem combine_map {M N : Type} [AddCommGroup M] [Module F M] [AddCommGroup N] [Module F N] (a : F) (f : M →ₗ[F] N) (l : List M) :
    f (combine a l) = combine a (l.map f) := by
  induction l with
  | nil => simp [combine]
  | cons x l ih => rw [combine, map_add, map_smul, ih, List.map_cons, combine]

omit [DecidableEq F] in
/-- a combination with a non-zero entry vanishes for few coefficients only -/
theorem combine_few {M : Type} [AddCommGroup M] [Module F M] (l : List M) (h : ∃ e ∈ l, e ≠ 0) :
    ∃ bad : Finset F, bad.card ≤ l.length - 1 ∧ ∀ a, combine a l = 0 → a ∈ bad := by
  classical
  obtain ⟨e, he, hne⟩ := h
  obtain ⟨f, hf⟩ : ∃ f : Module.Dual F M, f e ≠ 0 := by
    by_contra hc
    push Not at hc
    exact hne ((Module.forall_dual_apply_eq_zero_iff F e).1 hc)
  have hl : l.map f ≠ [] := by
    intro h0
    rw [List.map_eq_nil_iff] at h0
    subst h0
    simp at he
  have hp : toPoly (l.map f) ≠ 0 := by
    intro h0
    obtain ⟨i, hi, rfl⟩ := List.getElem_of_mem he
    have := congrArg (fun p => coeff p i) h0
    rw [coeff_toPoly, List.getElem?_map, List.getElem?_eq_getElem hi] at this
    exact hf (by simpa using this)
  refine ⟨(toPoly (l.map f)).roots.toFinset, ?_, ?_⟩
  · refine le_trans (Multiset.toFinset_card_le _) (le_trans (card_roots' _) ?_)
    have := natDegree_lt_length hl
    rw [List.length_map] at this
    omega
  · intro a ha
    rw [Multiset.mem_toFinset, mem_roots hp, IsRoot.def, ← combine_eq_eval]
    have := combine_map a f l
    rw [ha, map_zero] at this
    exact this.symm

omit [DecidableEq F] in
/-- a combination vanishes for all coefficients exactly if all entries do, in a field with enough elements -/
theorem combine_zero {M : Type} [AddCommGroup M] [Module F M] (l : List M) (h : ∀ e ∈ l, e = 0) (a : F) : combine a l = 0 := by
  induction l with
  | nil => rfl
  | cons x l ih =>
    rw [combine, h x (by simp), ih (fun e he => h e (by simp [he])), smul_zero, add_zero]

end basics

variable {F G1 G2 Gt : Type} [Field F] [DecidableEq F] [AddCommGroup G1] [Module F G1] [AddCommGroup G2] [Module F G2]
  [AddCommGroup Gt] [Module F Gt] [DecidableEq Gt]

/-- what is assumed of `multi_exp_unsafe`: the linear combination.  See C69 for the code of this function. -/
def MsmCorrect (msm : List F → List G1 → Res G1) : Prop :=
  ∀ s g, s.length = g.length → msm s g = .ok (List.zipWith (fun a b => a • b) s g).sum

/-- the pairing with the second base separates points and the first base is not the identity -/
structure NonDegenerate (P : Pairing F G1 G2 Gt) : Prop where
  separates : ∀ a, P.e a P.base2 = 0 → a = 0
  base : P.base1 ≠ 0

/-! ### Lemmas -/

omit [DecidableEq F] in
theorem powersLoop_take (s : F) (n k : Nat) (e : G1) (h : k ≤ n) : (powersLoop s n e).take k = powersLoop s k e := by
  induction n generalizing k e with
  | zero => obtain rfl : k = 0 := by omega
            rfl
  | succ n ih =>
    cases k with
    | zero => rfl
    | succ k => rw [powersLoop, List.take_succ_cons, ih k _ (by omega), powersLoop]

omit [DecidableEq F] in
theorem powersLoop_length (s : F) (n : Nat) (e : G1) : (powersLoop s n e).length = n := by
  induction n generalizing e with
  | zero => rfl
  | succ n ih => rw [powersLoop, List.length_cons, ih]

omit [DecidableEq F] in
theorem powersLoop_get (s : F) (n : Nat) (e : G1) (i : Nat) (h : i < n) : (powersLoop s n e)[i]? = some (s ^ i • e) := by
  induction n generalizing e i with
  | zero => omega
  | succ n ih =>
    cases i with
    | zero => rw [powersLoop, List.getElem?_cons_zero, pow_zero, one_smul]
    | succ i => rw [powersLoop, List.getElem?_cons_succ, ih _ i (by omega), smul_smul, pow_succ]

omit [DecidableEq F] in
theorem lincomb_powers (s : F) (p : List F) (e : G1) :
    (List.zipWith (fun a b => a • b) p (powersLoop s p.length e)).sum = (toPoly p).eval s • e := by
  induction p generalizing e with
  | nil => simp [toPoly]
  | cons a p ih =>
    rw [List.length_cons, powersLoop, List.zipWith_cons_cons, List.sum_cons, ih, toPoly, eval_add, eval_C, eval_mul, eval_X,
      add_smul, smul_smul, mul_comm s]

omit [DecidableEq F] [DecidableEq Gt] in
theorem e_sub (P : Pairing F G1 G2 Gt) (a b : G1) (h : G2) : P.e (a - b) h = P.e a h - P.e b h := by
  have := P.add_left (a - b) b h
  rw [sub_add_cancel] at this
  rw [this, add_sub_cancel_right]

omit [DecidableEq F] [DecidableEq Gt] in
theorem e_sub_right (P : Pairing F G1 G2 Gt) (a : G1) (h k : G2) : P.e a (h - k) = P.e a h - P.e a k := by
  have := P.add_right a (h - k) k
  rw [sub_add_cancel] at this
  rw [this, add_sub_cancel_right]

/-- the equation checked by `verify` -/
theorem verify_iff (P : Pairing F G1 G2 Gt) (d : Nat) (s : F) (cm : G1) (x v : F) (proof : G1) :
    (verify P (setup P d s) cm x v proof = .ok () ↔ P.e (cm - v • P.base1 - (s - x) • proof) P.base2 = 0) ∧
      (verify P (setup P d s) cm x v proof ≠ .ok () → verify P (setup P d s) cm x v proof = .err) := by
  have hl : (if v = 0 then P.e cm P.base2 else P.e (cm - v • P.base1) P.base2) = P.e (cm - v • P.base1) P.base2 := by
    split
    · rename_i h; rw [h, zero_smul, sub_zero]
    · rfl
  have hr : P.e proof (s • P.base2 - x • P.base2) = P.e ((s - x) • proof) P.base2 := by
    rw [← sub_smul, P.smul_right, P.smul_left]
  have hv : verify P (setup P d s) cm x v proof =
      if P.e (cm - v • P.base1) P.base2 = P.e ((s - x) • proof) P.base2 then .ok () else .err := by
    rw [← hl, ← hr]; rfl
  rw [hv, e_sub P (cm - v • P.base1), sub_eq_zero]
  constructor
  · split
    · rename_i h; simp [h]
    · rename_i h; simp [h]
  · split
    · simp
    · simp

/-! ### C59 -/

/-- C59: the commitment to a polynomial within the bound is its value at the secret times the base, a longer one is an error. -/
theorem C59_commit (P : Pairing F G1 G2 Gt) (msm : List F → List G1 → Res G1) (hm : MsmCorrect msm) (d : Nat) (s : F) (p : List F)
    (hp : p ≠ []) :
    commit msm (setup P d s) p = if p.length ≤ d + 1 then .ok ((toPoly p).eval s • P.base1) else .err := by
  have hpl := List.length_pos_iff.2 hp
  have hd : degree p + 1 = p.length := by rw [degree, if_neg (by omega)]; omega
  unfold commit
  rw [hd]
  have hl : (setup P d s).group1.length = d + 1 := powersLoop_length _ _ _
  rw [hl]
  by_cases h : p.length ≤ d + 1
  · rw [if_neg (by omega), if_pos h]
    have ht : (setup P d s).group1.take p.length = powersLoop s p.length P.base1 := powersLoop_take s _ _ _ h
    rw [ht, hm _ _ (powersLoop_length _ _ _).symm, lincomb_powers]
  · rw [if_pos (by omega), if_neg h]

/-- C59: two different polynomials with the same commitment reveal the secret as a root of their difference. -/
theorem C59_binding (P : Pairing F G1 G2 Gt) (hP : NonDegenerate P) (msm : List F → List G1 → Res G1) (hm : MsmCorrect msm) (d : Nat)
    (s : F) (p q : List F) (hp : Normal p) (hq : Normal q) (cm : G1) (h1 : commit msm (setup P d s) p = .ok cm)
    (h2 : commit msm (setup P d s) q = .ok cm) (hne : p ≠ q) :
    toPoly p - toPoly q ≠ 0 ∧ (toPoly p - toPoly q).natDegree ≤ d ∧ (toPoly p - toPoly q).eval s = 0 := by
  rw [C59_commit P msm hm d s p hp.1] at h1
  rw [C59_commit P msm hm d s q hq.1] at h2
  split at h1
  swap; · cases h1
  split at h2
  swap; · cases h2
  rename_i lp lq
  injection h1 with h1
  injection h2 with h2
  refine ⟨fun h => hne ((C57_equality hp hq).2 (sub_eq_zero.1 h)), ?_, ?_⟩
  · refine le_trans (natDegree_sub_le _ _) (max_le ?_ ?_)
    · have := natDegree_lt_length hp.1; omega
    · have := natDegree_lt_length hq.1; omega
  · have : ((toPoly p).eval s - (toPoly q).eval s) • P.base1 = 0 := by rw [sub_smul, h1, h2, sub_self]
    rw [eval_sub]
    rcases smul_eq_zero.1 this with h | h
    · exact h
    · exact absurd h hP.base

/-- C59: the honest opening proof at `x` exists and verifies for the value `p(x)`. -/
theorem C59_open_complete (P : Pairing F G1 G2 Gt) (msm : List F → List G1 → Res G1) (hm : MsmCorrect msm) (d bound : Nat) (s x : F)
    (p : List F) (hp : p ≠ []) (hlen : p.length ≤ d + 1) (hb : p.length ≤ bound + 1) :
    ∃ cm proof, commit msm (setup P d s) p = .ok cm ∧ prove msm (setup P d s) p x bound = .ok proof ∧
      verify P (setup P d s) cm x ((toPoly p).eval x) proof = .ok () := by
  have hpl := List.length_pos_iff.2 hp
  have hd : ¬ degree p > bound := by rw [degree, if_neg (by omega)]; omega
  have hn : Normal (sub p (fromCoefs [eval p x])) := (C57_results_normal p _ 0 hp).2.2.2.2.2.1
  have htp : toPoly (sub p (fromCoefs [eval p x])) = toPoly p - C ((toPoly p).eval x) := by
    rw [tp_sub, tp_fromCoefs, tp_const, C57_eval]
  obtain ⟨q, h1, h2, h3, h4⟩ := div_linear hn (x := x) (by rw [htp]; simp)
  have hlq : q.length ≤ d + 1 := by
    refine le_trans h4 (le_trans (normal_length_le hn (n := p.length - 1) ?_) (by omega))
    rw [htp]
    refine le_trans (natDegree_sub_le _ _) ?_
    have := natDegree_lt_length hp
    rw [natDegree_C]; omega
  refine ⟨_, (toPoly q).eval s • P.base1, by rw [C59_commit P msm hm d s p hp, if_pos hlen], ?_, ?_⟩
  · unfold prove
    simp only
    rw [if_neg hd, fromCoefs_linear, h1]
    simp only [Res.bind_ok, isZero_zero, if_true]
    rw [C59_commit P msm hm d s q h3.1, if_pos hlq, unwrapRes]
  · rw [(verify_iff P d s _ _ _ _).1]
    have e : (toPoly p).eval s - (toPoly p).eval x = (s - x) * (toPoly q).eval s := by
      have := congrArg (Polynomial.eval s) (htp.symm.trans h2)
      rw [eval_sub, eval_C, eval_mul, eval_sub, eval_X, eval_C] at this
      rw [this]; ring
    rw [← sub_smul, e, smul_smul, sub_self]
    have := P.smul_left 0 0 P.base2
    rw [zero_smul, zero_smul] at this
    exact this

/-- C59: no other value verifies with the same proof. -/
theorem C59_value_unique (P : Pairing F G1 G2 Gt) (hP : NonDegenerate P) (d : Nat) (s : F) (cm : G1) (x v v' : F) (proof : G1)
    (h : verify P (setup P d s) cm x v proof = .ok ()) (h' : verify P (setup P d s) cm x v' proof = .ok ()) : v = v' := by
  have e1 := hP.separates _ ((verify_iff P d s _ _ _ _).1.1 h)
  have e2 := hP.separates _ ((verify_iff P d s _ _ _ _).1.1 h')
  have : (v' - v) • P.base1 = 0 := by rw [sub_smul]; linear_combination (norm := module) e1 - e2
  rcases smul_eq_zero.1 this with h | h
  · exact (sub_eq_zero.1 h).symm
  · exact absurd h hP.base

/-- C59: the honest proof verifies for the value `p(x)` only, any other value is an error. -/
theorem C59_other_value_rejected (P : Pairing F G1 G2 Gt) (hP : NonDegenerate P) (msm : List F → List G1 → Res G1)
    (hm : MsmCorrect msm) (d bound : Nat) (s x v : F) (p : List F) (hp : p ≠ []) (hlen : p.length ≤ d + 1)
    (hb : p.length ≤ bound + 1) (cm proof : G1) (hc : commit msm (setup P d s) p = .ok cm)
    (hpr : prove msm (setup P d s) p x bound = .ok proof) (hv : v ≠ (toPoly p).eval x) :
    verify P (setup P d s) cm x v proof = .err := by
  obtain ⟨cm', proof', h1, h2, h3⟩ := C59_open_complete P msm hm d bound s x p hp hlen hb
  rw [hc] at h1
  rw [hpr] at h2
  cases h1
  cases h2
  exact (verify_iff P d s _ _ _ _).2 fun h => hv (C59_value_unique P hP d s _ _ _ _ _ h h3)

/-- C59: two proofs for different values at one point give `(s - x)⁻¹` times the base, a solution of the strong Diffie-Hellman
problem for the parameters. -/
theorem C59_two_values_extract (P : Pairing F G1 G2 Gt) (hP : NonDegenerate P) (d : Nat) (s : F) (cm : G1) (x v v' : F)
    (proof proof' : G1) (h : verify P (setup P d s) cm x v proof = .ok ())
    (h' : verify P (setup P d s) cm x v' proof' = .ok ()) (hne : v ≠ v') :
    s ≠ x ∧ (s - x)⁻¹ • P.base1 = (v' - v)⁻¹ • (proof - proof') := by
  have e1 := hP.separates _ ((verify_iff P d s _ _ _ _).1.1 h)
  have e2 := hP.separates _ ((verify_iff P d s _ _ _ _).1.1 h')
  have e : (v' - v) • P.base1 = (s - x) • (proof - proof') := by linear_combination (norm := module) e1 - e2
  have hv : v' - v ≠ 0 := sub_ne_zero.2 hne.symm
  have hs : s ≠ x := by
    rintro rfl
    rw [sub_self, zero_smul] at e
    rcases smul_eq_zero.1 e with h | h
    · exact hv h
    · exact hP.base h
  refine ⟨hs, ?_⟩
  have hs' : s - x ≠ 0 := sub_ne_zero.2 hs
  have := congrArg (fun g => ((v' - v)⁻¹ * (s - x)⁻¹) • g) e
  simp only [smul_smul] at this
  rw [show (v' - v)⁻¹ * (s - x)⁻¹ * (v' - v) = (s - x)⁻¹ by field_simp,
    show (v' - v)⁻¹ * (s - x)⁻¹ * (s - x) = (v' - v)⁻¹ by field_simp] at this
  exact this

omit [DecidableEq F] in
theorem batchLoop_eq (alpha : F) (evs : List F) (cms : List G1) (m : F) (acc : G1 × F) (h : evs.length = cms.length) :
    batchLoop alpha evs cms m acc = (acc.1 + m • combine alpha cms, acc.2 + m * combine alpha evs) := by
  induction evs generalizing cms m acc with
  | nil =>
    cases cms with
    | nil => simp [batchLoop, combine]
    | cons c cms => simp at h
  | cons ev evs ih =>
    cases cms with
    | nil => simp at h
    | cons c cms =>
      rw [batchLoop, ih cms _ _ (by simpa using h), combine, combine]
      simp only [smul_eq_mul]
      refine Prod.ext ?_ ?_
      · simp only; module
      · simp only; ring

theorem batchProveLoop_eq (point alpha : F) (ps : List (List F)) (h : List F) (m : F) (hn : Normal h) :
    toPoly (batchProveLoop point alpha ps h m) =
      toPoly h + C m * combine alpha (ps.map fun p => toPoly p - C ((toPoly p).eval point)) ∧
      Normal (batchProveLoop point alpha ps h m) := by
  induction ps generalizing h m with
  | nil => simp [batchProveLoop, combine, hn]
  | cons p ps ih =>
    obtain ⟨h1, h2⟩ := ih (add h (mulScalar (sub p (fromCoefs [eval p point])) m)) (m * alpha)
      (C57_results_normal h _ 0 hn.1).2.2.2.1
    refine ⟨?_, h2⟩
    rw [batchProveLoop, h1, tp_add, tp_mulScalar, tp_sub, tp_fromCoefs, tp_const, C57_eval, List.map_cons, combine, C_mul,
      smul_eq_C_mul]
    ring

omit [DecidableEq F] in
theorem combine_natDegree (alpha : F) (l : List F[X]) (d : Nat) (h : ∀ p ∈ l, p.natDegree ≤ d) : (combine alpha l).natDegree ≤ d := by
  induction l with
  | nil => simp [combine]
  | cons p l ih =>
    rw [combine]
    refine le_trans (natDegree_add_le _ _) (max_le (h p (by simp)) ?_)
    exact le_trans (natDegree_smul_le _ _) (ih fun q hq => h q (by simp [hq]))

omit [DecidableEq F] in
theorem combine_eval (alpha x : F) (l : List F[X]) : (combine alpha l).eval x = combine alpha (l.map fun p => p.eval x) := by
  exact combine_map alpha (Polynomial.leval x) l

omit [DecidableEq F] in
theorem combine_smul_base (alpha : F) (l : List F) (g : G1) : combine alpha (l.map fun a => a • g) = combine alpha l • g := by
  induction l with
  | nil => simp [combine]
  | cons a l ih => rw [List.map_cons, combine, combine, ih, add_smul, smul_smul, smul_eq_mul]

omit [DecidableEq F] in
theorem combine_sub {M : Type} [AddCommGroup M] [Module F M] (a : F) (l m : List M) (h : l.length = m.length) :
    combine a (List.zipWith (fun x y => x - y) l m) = combine a l - combine a m := by
  induction l generalizing m with
  | nil => cases m with
    | nil => simp [combine]
    | cons y m => simp at h
  | cons x l ih => cases m with
    | nil => simp at h
    | cons y m =>
      rw [List.zipWith_cons_cons, combine, combine, combine, ih m (by simpa using h)]
      module

/-- the commitments to the polynomials -/
def commitAll (msm : List F → List G1 → Res G1) (pp : Params G1 G2) (ps : List (List F)) : List (Res G1) := ps.map (commit msm pp)

/-- C59: batched proofs of honest openings are accepted: the prover and the verifier draw the same coefficient because their
transcripts are in the same state. -/
theorem C59_batch_complete (P : Pairing F G1 G2 Gt) (msm : List F → List G1 → Res G1) (hm : MsmCorrect msm)
    (H : Tr F G1 → Nat → F) (tr : Tr F G1) (d bound : Nat) (s x : F) (ps : List (List F)) (hne : ps ≠ [])
    (hp : ∀ p ∈ ps, p ≠ [] ∧ p.length ≤ d + 1) :
    ∃ cms proof tr', commitAll msm (setup P d s) ps = cms.map Res.ok ∧
      batchProve H msm (setup P d s) tr ps x bound = .ok (proof, tr') ∧
      batchVerify H P (setup P d s) tr cms bound x (ps.map fun p => (toPoly p).eval x) proof = .ok () := by
  have hlen : ps.length ≠ 0 := fun h => hne (List.length_eq_zero_iff.1 h)
  set alpha := H (initBatchEval tr bound x ++ [.challenge "alpha"]) 0 with halpha
  have hz : Normal (zeroPoly : List F) := normal_trim (by simp)
  obtain ⟨e1, n1⟩ := batchProveLoop_eq x alpha ps zeroPoly 1 hz
  rw [tp_zero, C_1, one_mul, zero_add] at e1
  have hroot : (toPoly (batchProveLoop x alpha ps zeroPoly 1)).eval x = 0 := by
    rw [e1, combine_eval]
    refine combine_zero _ ?_ alpha
    intro e he
    rw [List.map_map, List.mem_map] at he
    obtain ⟨p, -, rfl⟩ := he
    simp
  obtain ⟨q, h1, h2, h3, h4⟩ := div_linear n1 hroot
  have hlq : q.length ≤ d + 1 := by
    refine le_trans h4 (normal_length_le n1 ?_)
    rw [e1]
    refine combine_natDegree alpha _ d ?_
    intro f hf
    rw [List.mem_map] at hf
    obtain ⟨p, hpm, rfl⟩ := hf
    refine le_trans (natDegree_sub_le _ _) ?_
    have := natDegree_lt_length (hp p hpm).1
    have := (hp p hpm).2
    rw [natDegree_C]; omega
  refine ⟨ps.map fun p => (toPoly p).eval s • P.base1, (toPoly q).eval s • P.base1,
    initBatchEval tr bound x ++ [.challenge "alpha"], ?_, ?_, ?_⟩
  · unfold commitAll
    rw [List.map_map]
    refine List.map_congr_left fun p hpm => ?_
    rw [C59_commit P msm hm d s p (hp p hpm).1, if_pos (hp p hpm).2]
    rfl
  · unfold batchProve challengeField
    simp only [← halpha]
    rw [if_neg hlen, fromZeroes_one, h1]
    simp only [Res.bind_ok, isZero_zero, if_true]
    rw [C59_commit P msm hm d s q h3.1, if_pos hlq]
    rfl
  · unfold batchVerify batch challengeField
    simp only [← halpha]
    rw [batchLoop_eq _ _ _ _ _ (by simp), (verify_iff P d s _ _ _ _).1]
    have ec : combine alpha (ps.map fun p => (toPoly p).eval s • P.base1) =
        combine alpha (ps.map fun p => (toPoly p).eval s) • P.base1 := by
      rw [← combine_smul_base, List.map_map]; rfl
    have ed := congrArg (Polynomial.eval s) (e1.symm.trans h2)
    rw [combine_eval, List.map_map, eval_mul, eval_sub, eval_X, eval_C] at ed
    have ez : (ps.map ((fun p : F[X] => p.eval s) ∘ fun p => toPoly p - C ((toPoly p).eval x))) =
        List.zipWith (fun a b => a - b) (ps.map fun p => (toPoly p).eval s) (ps.map fun p => (toPoly p).eval x) := by
      rw [List.zipWith_map, List.zipWith_self]
      refine List.map_congr_left fun p _ => ?_
      simp
    rw [ez, combine_sub _ _ _ (by simp)] at ed
    have : (0 : G1) + (1 : F) • combine alpha (ps.map fun p => (toPoly p).eval s • P.base1) -
        (0 + 1 * combine alpha (ps.map fun p => (toPoly p).eval x)) • P.base1 - (s - x) • (toPoly q).eval s • P.base1 = 0 := by
      rw [ec]
      linear_combination (norm := module) ed • (1 : F) • P.base1
    rw [this]
    have := P.smul_left 0 0 P.base2
    rw [zero_smul, zero_smul] at this
    exact this

theorem commitAll_eq (P : Pairing F G1 G2 Gt) (msm : List F → List G1 → Res G1) (hm : MsmCorrect msm) (d : Nat) (s : F)
    (ps : List (List F)) (hp : ∀ p ∈ ps, p ≠ []) (cms : List G1) (h : commitAll msm (setup P d s) ps = cms.map Res.ok) :
    (∀ p ∈ ps, p.length ≤ d + 1) ∧ cms = ps.map fun p => (toPoly p).eval s • P.base1 := by
  induction ps generalizing cms with
  | nil =>
    simp only [commitAll, List.map_nil] at h
    simp [List.map_eq_nil_iff.1 h.symm]
  | cons p ps ih =>
    cases cms with
    | nil => simp [commitAll] at h
    | cons cm cms =>
      simp only [commitAll, List.map_cons, List.cons.injEq] at h
      obtain ⟨i1, i2⟩ := ih (fun q hq => hp q (by simp [hq])) cms h.2
      have h1 := h.1
      rw [C59_commit P msm hm d s p (hp p (by simp))] at h1
      split at h1
      · rename_i hl
        injection h1 with h1
        refine ⟨?_, ?_⟩
        · intro q hq
          rcases List.mem_cons.1 hq with rfl | hq
          · exact hl
          · exact i1 q hq
        · rw [List.map_cons, h1, i2]
      · cases h1

/-- C59: for committed polynomials and values of which one is wrong, all but `n - 1` coefficients make an accepted batched proof
give a solution of the strong Diffie-Hellman problem. -/
theorem C59_batch_sound (P : Pairing F G1 G2 Gt) (hP : NonDegenerate P) (msm : List F → List G1 → Res G1) (hm : MsmCorrect msm)
    (d : Nat) (s x : F) (ps : List (List F)) (hp : ∀ p ∈ ps, p ≠ []) (cms : List G1)
    (hcms : commitAll msm (setup P d s) ps = cms.map Res.ok) (vs : List F) (hl : vs.length = ps.length)
    (hwrong : vs ≠ ps.map fun p => (toPoly p).eval x) :
    ∃ bad : Finset F, bad.card ≤ ps.length - 1 ∧
      ∀ (H : Tr F G1 → Nat → F) (tr : Tr F G1) (bound : Nat) (proof : G1),
        batchVerify H P (setup P d s) tr cms bound x vs proof = .ok () →
        H (initBatchEval tr bound x ++ [.challenge "alpha"]) 0 ∈ bad ∨
        ∃ (c : F) (q : F[X]), s ≠ x ∧ q.natDegree ≤ d ∧
          (s - x)⁻¹ • P.base1 = c • (proof - q.eval s • P.base1) := by
  have hex : ∃ e ∈ List.zipWith (fun a b => a - b) (ps.map fun p => (toPoly p).eval x) vs, e ≠ 0 := by
    by_contra hc
    push Not at hc
    apply hwrong
    refine List.ext_getElem (by rw [hl, List.length_map]) fun i h1 h2 => ?_
    rw [List.length_map] at h2
    have := hc ((ps.map fun p => (toPoly p).eval x)[i]'(by rw [List.length_map]; exact h2) - vs[i]) (by
      rw [List.mem_iff_getElem]
      exact ⟨i, by simp; omega, by simp⟩)
    exact (sub_eq_zero.1 this).symm
  obtain ⟨hlen, rfl⟩ := commitAll_eq P msm hm d s ps hp cms hcms
  obtain ⟨bad, hb1, hb2⟩ := combine_few (F := F) _ hex
  refine ⟨bad, by simpa [hl] using hb1, ?_⟩
  intro H tr bound proof h
  set alpha := H (initBatchEval tr bound x ++ [.challenge "alpha"]) 0 with halpha
  by_cases hbad : alpha ∈ bad
  · exact Or.inl hbad
  · right
    have hne : combine alpha (ps.map fun p => (toPoly p).eval x) - combine alpha vs ≠ 0 := by
      rw [← combine_sub _ _ _ (by simp [hl])]
      exact fun h0 => hbad (hb2 _ h0)
    unfold batchVerify batch challengeField at h
    simp only [← halpha] at h
    rw [batchLoop_eq _ _ _ _ _ (by simp [hl]), (verify_iff P d s _ _ _ _).1] at h
    have e1 := hP.separates _ h
    have ec : combine alpha (ps.map fun p => (toPoly p).eval s • P.base1) =
        combine alpha (ps.map fun p => (toPoly p).eval s) • P.base1 := by
      rw [← combine_smul_base, List.map_map]; rfl
    rw [ec, zero_add, one_smul, zero_add, one_mul] at e1
    -- the quotient of the honest combination
    set f := combine alpha (ps.map toPoly) with hf
    have hfs : f.eval s = combine alpha (ps.map fun p => (toPoly p).eval s) := by rw [hf, combine_eval, List.map_map]; rfl
    have hfx : f.eval x = combine alpha (ps.map fun p => (toPoly p).eval x) := by rw [hf, combine_eval, List.map_map]; rfl
    have hdiv : f = C (f.eval x) + (X - C x) * (f /ₘ (X - C x)) := by
      conv_lhs => rw [← modByMonic_add_div f (X - C x), modByMonic_X_sub_C_eq_C_eval]
    have hq := congrArg (Polynomial.eval s) hdiv
    rw [eval_add, eval_C, eval_mul, eval_sub, eval_X, eval_C, hfs, hfx] at hq
    set q := f /ₘ (X - C x)
    have hs : s ≠ x := by
      rintro rfl
      rw [sub_self, zero_smul, sub_zero, ← sub_smul] at e1
      rcases smul_eq_zero.1 e1 with h0 | h0
      · exact hne h0
      · exact hP.base h0
    have hs' : s - x ≠ 0 := sub_ne_zero.2 hs
    set c := combine alpha (ps.map fun p => (toPoly p).eval x) - combine alpha vs with hc
    refine ⟨c⁻¹, q, hs, ?_, ?_⟩
    · rw [natDegree_divByMonic _ (monic_X_sub_C x)]
      refine le_trans (Nat.sub_le _ _) ?_
      refine combine_natDegree alpha _ d ?_
      intro f hf
      rw [List.mem_map] at hf
      obtain ⟨p, hpm, rfl⟩ := hf
      have := natDegree_lt_length (hp p hpm)
      have := hlen p hpm
      omega
    · have e : c • P.base1 = (s - x) • (proof - q.eval s • P.base1) := by
        linear_combination (norm := module) e1 - hq • (1 : F) • P.base1
      have := congrArg (fun g => (c⁻¹ * (s - x)⁻¹) • g) e
      simp only [smul_smul] at this
      rw [show c⁻¹ * (s - x)⁻¹ * c = (s - x)⁻¹ by field_simp, show c⁻¹ * (s - x)⁻¹ * (s - x) = c⁻¹ by field_simp] at this
      exact this

omit [DecidableEq F] in
theorem diffPointsLoop_eq (u : F) (pfs : List G1) (xs vs : List F) (cms : List G1) (c : F) (acc : G1 × G1 × F × G1)
    (h1 : pfs.length = xs.length) (h2 : pfs.length = vs.length) (h3 : pfs.length = cms.length) :
    diffPointsLoop u pfs xs vs cms c acc = (acc.1 + c • combine u pfs,
      acc.2.1 + c • combine u (List.zipWith (fun x p => x • p) xs pfs), acc.2.2.1 + c * combine u vs,
      acc.2.2.2 + c • combine u cms) := by
  induction pfs generalizing xs vs cms c acc with
  | nil =>
    obtain rfl := List.length_eq_zero_iff.1 h1.symm
    obtain rfl := List.length_eq_zero_iff.1 h2.symm
    obtain rfl := List.length_eq_zero_iff.1 h3.symm
    simp [diffPointsLoop, combine]
  | cons pf pfs ih =>
    cases xs with
    | nil => simp at h1
    | cons x xs =>
      cases vs with
      | nil => simp at h2
      | cons v vs =>
        cases cms with
        | nil => simp at h3
        | cons cm cms =>
          obtain ⟨a, b, e, f⟩ := acc
          rw [diffPointsLoop]
          simp only
          rw [ih xs vs cms _ _ (by simpa using h1) (by simpa using h2) (by simpa using h3)]
          simp only [List.zipWith_cons_cons, combine, smul_eq_mul]
          refine Prod.ext ?_ (Prod.ext ?_ (Prod.ext ?_ ?_))
          · simp only; module
          · simp only; module
          · simp only; ring
          · simp only; module

/-- by how much the opening equation of one claim fails: zero exactly for an accepted proof -/
def openError (P : Pairing F G1 G2 Gt) (s : F) : List G1 → List F → List F → List G1 → List G1
  | cm :: cms, x :: xs, v :: vs, pf :: pfs => (cm - v • P.base1 - (s - x) • pf) :: openError P s cms xs vs pfs
  | _, _, _, _ => []

omit [DecidableEq F] [DecidableEq Gt] in
theorem combine_openError (P : Pairing F G1 G2 Gt) (s u : F) (cms : List G1) (xs vs : List F) (pfs : List G1)
    (h1 : pfs.length = xs.length) (h2 : pfs.length = vs.length) (h3 : pfs.length = cms.length) :
    combine u (openError P s cms xs vs pfs) = combine u cms - combine u vs • P.base1 - s • combine u pfs +
      combine u (List.zipWith (fun x p => x • p) xs pfs) := by
  induction pfs generalizing xs vs cms with
  | nil =>
    obtain rfl := List.length_eq_zero_iff.1 h1.symm
    obtain rfl := List.length_eq_zero_iff.1 h2.symm
    obtain rfl := List.length_eq_zero_iff.1 h3.symm
    simp [openError, combine]
  | cons pf pfs ih =>
    cases xs with
    | nil => simp at h1
    | cons x xs =>
      cases vs with
      | nil => simp at h2
      | cons v vs =>
        cases cms with
        | nil => simp at h3
        | cons cm cms =>
          rw [openError, combine, ih cms xs vs (by simpa using h1) (by simpa using h2) (by simpa using h3)]
          simp only [List.zipWith_cons_cons, combine, smul_eq_mul]
          module

/-- the equation checked by `batch_verify_diff_points` -/
theorem batchVerifyDiffPoints_iff (P : Pairing F G1 G2 Gt) (d : Nat) (s u : F) (cms : List G1) (xs vs : List F) (pfs : List G1)
    (h0 : pfs ≠ []) (h1 : pfs.length = xs.length) (h2 : pfs.length = vs.length) (h3 : pfs.length = cms.length) :
    batchVerifyDiffPoints P (setup P d s) cms xs vs pfs u = .ok () ↔
      P.e (combine u (openError P s cms xs vs pfs)) P.base2 = 0 := by
  have hl0 : pfs.length ≠ 0 := fun h => h0 (List.length_eq_zero_iff.1 h)
  rw [combine_openError P s u cms xs vs pfs h1 h2 h3]
  unfold batchVerifyDiffPoints
  rw [if_neg (by omega)]
  cases pfs with
  | nil => exact absurd rfl h0
  | cons pf pfs =>
  cases xs with
  | nil => simp at h1
  | cons x xs =>
  cases vs with
  | nil => simp at h2
  | cons v vs =>
  cases cms with
  | nil => simp at h3
  | cons cm cms =>
    have hg1 : (setup P d s).group1[0]? = some P.base1 := rfl
    have hg2 : (setup P d s).group2[0]? = some P.base2 := rfl
    have hg3 : (setup P d s).group2[1]? = some (s • P.base2) := rfl
    simp only [hg1, hg2, hg3]
    rw [diffPointsLoop_eq u pfs xs vs cms _ _ (by simpa using h1) (by simpa using h2) (by simpa using h3)]
    simp only
    have key : P.e (combine u (cm :: cms) - combine u (v :: vs) • P.base1 - s • combine u (pf :: pfs) +
        combine u (List.zipWith (fun x p => x • p) (x :: xs) (pf :: pfs))) P.base2 =
        P.e (x • pf + u • combine u (List.zipWith (fun x p => x • p) xs pfs) - (v + u * combine u vs) • P.base1 +
          (cm + u • combine u cms)) P.base2 - P.e (pf + u • combine u pfs) (s • P.base2) := by
      rw [P.smul_right, ← P.smul_left, ← e_sub]
      congr 1
      simp only [List.zipWith_cons_cons, combine, smul_eq_mul]
      module
    rw [key, sub_eq_zero]
    split
    · rename_i h; simp [h]
    · rename_i h; simp [Ne.symm h]

omit [DecidableEq F] [DecidableEq Gt] in
theorem openError_length (P : Pairing F G1 G2 Gt) (s : F) (cms : List G1) (xs vs : List F) (pfs : List G1)
    (h1 : pfs.length = xs.length) (h2 : pfs.length = vs.length) (h3 : pfs.length = cms.length) :
    (openError P s cms xs vs pfs).length = pfs.length := by
  induction pfs generalizing xs vs cms with
  | nil =>
    obtain rfl := List.length_eq_zero_iff.1 h1.symm
    obtain rfl := List.length_eq_zero_iff.1 h2.symm
    obtain rfl := List.length_eq_zero_iff.1 h3.symm
    simp [openError]
  | cons pf pfs ih =>
    cases xs with
    | nil => simp at h1
    | cons x xs =>
      cases vs with
      | nil => simp at h2
      | cons v vs =>
        cases cms with
        | nil => simp at h3
        | cons cm cms =>
          rw [openError, List.length_cons, ih cms xs vs (by simpa using h1) (by simpa using h2) (by simpa using h3),
            List.length_cons]

omit [DecidableEq F] [DecidableEq Gt] in
theorem openError_get (P : Pairing F G1 G2 Gt) (s : F) (cms : List G1) (xs vs : List F) (pfs : List G1)
    (h1 : pfs.length = xs.length) (h2 : pfs.length = vs.length) (h3 : pfs.length = cms.length) (i : Nat) (hi : i < pfs.length) :
    (openError P s cms xs vs pfs)[i]'(by rw [openError_length P s cms xs vs pfs h1 h2 h3]; exact hi) =
      cms[i] - vs[i] • P.base1 - (s - xs[i]) • pfs[i] := by
  induction pfs generalizing xs vs cms i with
  | nil => simp at hi
  | cons pf pfs ih =>
    cases xs with
    | nil => simp at h1
    | cons x xs =>
      cases vs with
      | nil => simp at h2
      | cons v vs =>
        cases cms with
        | nil => simp at h3
        | cons cm cms =>
          cases i with
          | zero => simp [openError]
          | succ i =>
            simp only [openError, List.getElem_cons_succ]
            exact ih cms xs vs (by simpa using h1) (by simpa using h2) (by simpa using h3) i (by simpa using hi)

/-- C59: if every single proof is accepted then so is the batch at several points, whatever the challenge. -/
theorem C59_diff_points_complete (P : Pairing F G1 G2 Gt) (hP : NonDegenerate P) (d : Nat) (s u : F) (cms : List G1)
    (xs vs : List F) (pfs : List G1)
    (h0 : pfs ≠ []) (h1 : pfs.length = xs.length) (h2 : pfs.length = vs.length) (h3 : pfs.length = cms.length)
    (h : ∀ i (hi : i < pfs.length), verify P (setup P d s) cms[i] xs[i] vs[i] pfs[i] = .ok ()) :
    batchVerifyDiffPoints P (setup P d s) cms xs vs pfs u = .ok () := by
  rw [batchVerifyDiffPoints_iff P d s u cms xs vs pfs h0 h1 h2 h3, combine_zero]
  · have := P.smul_left 0 0 P.base2
    rw [zero_smul, zero_smul] at this
    exact this
  · intro e he
    obtain ⟨i, hi, rfl⟩ := List.getElem_of_mem he
    rw [openError_length P s cms xs vs pfs h1 h2 h3] at hi
    rw [openError_get P s cms xs vs pfs h1 h2 h3 i hi]
    exact hP.separates _ ((verify_iff P d s _ _ _ _).1.1 (h i hi))

/-- C59: if a single proof is not accepted, at most `n - 1` challenges make the batch of `n` proofs accepted.  The challenge must
not be known to whoever chooses the proofs, see C59_known_challenge_forges. -/
theorem C59_diff_points_sound (P : Pairing F G1 G2 Gt) (hP : NonDegenerate P) (d : Nat) (s : F) (cms : List G1) (xs vs : List F)
    (pfs : List G1) (h0 : pfs ≠ []) (h1 : pfs.length = xs.length) (h2 : pfs.length = vs.length) (h3 : pfs.length = cms.length)
    (h : ∃ i, ∃ hi : i < pfs.length, verify P (setup P d s) cms[i] xs[i] vs[i] pfs[i] ≠ .ok ()) :
    ∃ bad : Finset F, bad.card ≤ pfs.length - 1 ∧
      ∀ u, batchVerifyDiffPoints P (setup P d s) cms xs vs pfs u = .ok () → u ∈ bad := by
  obtain ⟨i, hi, hv⟩ := h
  have hlen := openError_length P s cms xs vs pfs h1 h2 h3
  obtain ⟨bad, hb1, hb2⟩ := combine_few (F := F) (openError P s cms xs vs pfs) ⟨_, List.getElem_mem (by rw [hlen]; exact hi), by
    rw [openError_get P s cms xs vs pfs h1 h2 h3 i hi]
    intro h0
    apply hv
    rw [(verify_iff P d s _ _ _ _).1, h0]
    have := P.smul_left 0 0 P.base2
    rw [zero_smul, zero_smul] at this
    exact this⟩
  refine ⟨bad, by rw [← hlen]; exact hb1, ?_⟩
  intro u hu
  exact hb2 u (hP.separates _ ((batchVerifyDiffPoints_iff P d s u cms xs vs pfs h0 h1 h2 h3).1 hu))

/-- what a prover who knows the challenge `u` does: proofs for arbitrary values `v1`, `v2` of committed polynomials `p1`, `p2` at
different points, from the public parameters only -/
def forge (msm : List F → List G1 → Res G1) (pp : Params G1 G2) (p1 p2 : List F) (x1 x2 v1 v2 u : F) : Res (G1 × G1) := do
  let f := add (sub p1 (fromCoefs [v1])) (mulScalar (sub p2 (fromCoefs [v2])) u)
  let c := eval f x2 * (x2 - x1)⁻¹
  let (q, _) ← divRem (sub f (mulScalar (fromCoefs [-x1, 1]) c)) (fromCoefs [-x2, 1])
  let pf1 ← commit msm pp [c]
  let pf2 ← commit msm pp (mulScalar q u⁻¹)
  pure (pf1, pf2)

/-- C59: the soundness of the batch at several points needs the challenge to be drawn after the proofs.  Whoever knows the
challenge `u ≠ 0` beforehand makes the batch accept any two values at two different points. -/
theorem C59_known_challenge_forges (P : Pairing F G1 G2 Gt) (msm : List F → List G1 → Res G1) (hm : MsmCorrect msm) (d : Nat)
    (s x1 x2 v1 v2 u : F) (p1 p2 : List F) (hp1 : p1 ≠ []) (hp2 : p2 ≠ []) (hl1 : p1.length ≤ d + 1) (hl2 : p2.length ≤ d + 1)
    (hd : 0 < d) (hx : x1 ≠ x2) (hu : u ≠ 0) :
    ∃ pf1 pf2, forge msm (setup P d s) p1 p2 x1 x2 v1 v2 u = .ok (pf1, pf2) ∧
      batchVerifyDiffPoints P (setup P d s) [(toPoly p1).eval s • P.base1, (toPoly p2).eval s • P.base1] [x1, x2] [v1, v2]
        [pf1, pf2] u = .ok () := by
  set f := add (sub p1 (fromCoefs [v1])) (mulScalar (sub p2 (fromCoefs [v2])) u) with hf
  have hfn : Normal f := (C57_results_normal (sub p1 (fromCoefs [v1])) (mulScalar (sub p2 (fromCoefs [v2])) u) 0
    (C57_results_normal p1 (fromCoefs [v1]) 0 hp1).2.2.2.2.2.1.1).2.2.2.1
  have htf : toPoly f = (toPoly p1 - C v1) + C u * (toPoly p2 - C v2) := by
    rw [hf, tp_add, tp_mulScalar, tp_sub, tp_sub, tp_fromCoefs, tp_fromCoefs, tp_const, tp_const]
  set c := eval f x2 * (x2 - x1)⁻¹ with hc
  have hx' : x2 - x1 ≠ 0 := sub_ne_zero.2 hx.symm
  set g := sub f (mulScalar (fromCoefs [-x1, 1]) c) with hg
  have hgn : Normal g := (C57_results_normal f _ 0 hfn.1).2.2.2.2.2.1
  have htg : toPoly g = toPoly f - C c * (X - C x1) := by rw [hg, tp_sub, tp_mulScalar, tp_fromCoefs, tp_linear]
  obtain ⟨q, h1, h2, h3, h4⟩ := div_linear hgn (x := x2) (by
    rw [htg, hc, C57_eval, eval_sub, eval_mul, eval_C, eval_sub, eval_X, eval_C, mul_assoc, inv_mul_cancel₀ hx', mul_one, sub_self])
  have hdeg : (toPoly g).natDegree ≤ d := by
    have a1 := natDegree_lt_length hp1
    have a2 := natDegree_lt_length hp2
    rw [htg, htf]
    refine le_trans (natDegree_sub_le _ _) (max_le (le_trans (natDegree_add_le _ _) (max_le ?_ ?_)) ?_)
    · refine le_trans (natDegree_sub_le _ _) (max_le (by omega) ?_)
      rw [natDegree_C]; omega
    · refine le_trans (natDegree_C_mul_le _ _) (le_trans (natDegree_sub_le _ _) (max_le (by omega) ?_))
      rw [natDegree_C]; omega
    · refine le_trans (natDegree_C_mul_le _ _) ?_
      rw [natDegree_X_sub_C]; omega
  have hq' : Normal (mulScalar q u⁻¹) := (C57_results_normal q q u⁻¹ h3.1).2.2.2.2.2.2.2.2.1
  have hlq : (mulScalar q u⁻¹).length ≤ d + 1 := by
    refine normal_length_le hq' ?_
    rw [tp_mulScalar]
    refine le_trans (natDegree_C_mul_le _ _) ?_
    have := natDegree_lt_length h3.1
    have := normal_length_le hgn hdeg
    omega
  refine ⟨(toPoly [c]).eval s • P.base1, (toPoly (mulScalar q u⁻¹)).eval s • P.base1, ?_, ?_⟩
  · unfold forge
    simp only [← hf, ← hc, ← hg]
    rw [fromCoefs_linear, h1]
    simp only [Res.bind_ok]
    rw [C59_commit P msm hm d s [c] (by simp), if_pos (by simp), C59_commit P msm hm d s _ hq'.1, if_pos hlq]
    rfl
  · rw [batchVerifyDiffPoints_iff P d s u _ _ _ _ (by simp) (by simp) (by simp) (by simp)]
    have e := congrArg (Polynomial.eval s) ((htg.symm.trans h2))
    rw [htf] at e
    simp only [eval_sub, eval_add, eval_mul, eval_C, eval_X] at e
    simp only [openError, combine, tp_mulScalar, tp_const, eval_C, eval_mul, smul_zero, add_zero]
    have : (toPoly p1).eval s • P.base1 - v1 • P.base1 - (s - x1) • c • P.base1 +
        u • ((toPoly p2).eval s • P.base1 - v2 • P.base1 - (s - x2) • (u⁻¹ * (toPoly q).eval s) • P.base1) = 0 := by
      have hu' : u * u⁻¹ = 1 := mul_inv_cancel₀ hu
      linear_combination (norm := module) e • (1 : F) • P.base1 - ((s - x2) * (toPoly q).eval s) • hu' • (1 : F) • P.base1
    rw [this]
    have := P.smul_left 0 0 P.base2
    rw [zero_smul, zero_smul] at this
    exact this

/-- C59: blinding a commitment adds the commitment to `b(X) (1 - Xⁿ)`, where `b` has the blinds as coefficients. -/
theorem C59_apply_blind_factors (P : Pairing F G1 G2 Gt) (d n : Nat) (s : F) (blinds : List F) (cm : G1)
    (h : n + blinds.length ≤ d + 1) :
    applyBlindFactors (setup P d s) n blinds 0 cm =
      .ok (cm + (toPoly blinds * (1 - X ^ n)).eval s • P.base1) := by
  suffices H : ∀ (blinds : List F) (i : Nat) (cm : G1), n + i + blinds.length ≤ d + 1 →
      applyBlindFactors (setup P d s) n blinds i cm =
        .ok (cm + (s ^ i * (toPoly blinds).eval s * (1 - s ^ n)) • P.base1) by
    rw [H blinds 0 cm (by omega)]
    simp
  intro blinds
  induction blinds with
  | nil => intro i cm _; simp [applyBlindFactors, toPoly]
  | cons b bs ih =>
    intro i cm hi
    rw [List.length_cons] at hi
    have g1 : (setup P d s).group1[i]? = some (s ^ i • P.base1) := powersLoop_get s _ _ i (by omega)
    have g2 : (setup P d s).group1[n + i]? = some (s ^ (n + i) • P.base1) := powersLoop_get s _ _ _ (by omega)
    rw [applyBlindFactors, g1, g2]
    simp only
    rw [ih (i + 1) _ (by omega), toPoly, eval_add, eval_C, eval_mul, eval_X, pow_succ, pow_add]
    congr 1
    module

/-- C59: a batch opening at several points is refused by a panic, whatever the challenge, exactly when the batch is empty or one of
the other lists has another length than the list of proofs. -/
theorem C59_diff_points_panics_iff (P : Pairing F G1 G2 Gt) (d : Nat) (s u : F) (cms : List G1) (xs vs : List F) (pfs : List G1) :
    batchVerifyDiffPoints P (setup P d s) cms xs vs pfs u = .panic ↔
      pfs = [] ∨ xs.length ≠ pfs.length ∨ vs.length ≠ pfs.length ∨ cms.length ≠ pfs.length := by
  unfold batchVerifyDiffPoints
  split
  · next h =>
    refine ⟨fun _ => ?_, fun _ => rfl⟩
    rcases h with h | h | h | h
    · exact .inl (List.length_eq_zero_iff.1 h)
    · exact .inr (.inl (Ne.symm h))
    · exact .inr (.inr (.inl (Ne.symm h)))
    · exact .inr (.inr (.inr (Ne.symm h)))
  · next h =>
    push Not at h
    obtain ⟨h0, h1, h2, h3⟩ := h
    have hne : ¬ (pfs = [] ∨ xs.length ≠ pfs.length ∨ vs.length ≠ pfs.length ∨ cms.length ≠ pfs.length) := by
      rintro (h | h | h | h)
      · exact h0 (by rw [h]; rfl)
      · exact h h1.symm
      · exact h h2.symm
      · exact h h3.symm
    refine ⟨fun hp => absurd hp ?_, fun h => absurd h hne⟩
    cases pfs with
    | nil => exact absurd rfl h0
    | cons pf pfs =>
      cases xs with
      | nil => simp at h1
      | cons x xs =>
        cases vs with
        | nil => simp at h2
        | cons v vs =>
          cases cms with
          | nil => simp at h3
          | cons cm cms =>
            simp only [setup, powersLoop, List.getElem?_cons_zero, List.getElem?_cons_succ]
            split <;> simp

/-- C59: the parameters cut down for verifiers verify the same proofs. -/
theorem C59_shrink (P : Pairing F G1 G2 Gt) (d : Nat) (s : F) :
    ∃ pp, shrink (setup P d s) = .ok pp ∧
      (∀ cm x v proof, verify P pp cm x v proof = verify P (setup P d s) cm x v proof) ∧
      ∀ cms xs vs pfs u, batchVerifyDiffPoints P pp cms xs vs pfs u = batchVerifyDiffPoints P (setup P d s) cms xs vs pfs u :=
  ⟨⟨[P.base1], [P.base2, s • P.base2]⟩, rfl, fun _ _ _ _ => rfl, fun _ _ _ _ _ => rfl⟩

omit [DecidableEq F] in
/-- C59: the lengths of the lists given to `batch` are not compared: commitments beyond the values have no influence. -/
theorem C59_batch_length_unchecked (H : Tr F G1 → Nat → F) (tr : Tr F G1) (cms more : List G1) (bound : Nat) (x : F)
    (vs : List F) (h : vs.length ≤ cms.length) :
    batch H tr (cms ++ more) bound x vs = batch H tr cms bound x vs := by
  have : ∀ (vs : List F) (cms : List G1) (alpha m : F) (acc : G1 × F), vs.length ≤ cms.length →
      batchLoop alpha vs (cms ++ more) m acc = batchLoop alpha vs cms m acc := by
    intro vs
    induction vs with
    | nil => intro cms alpha m acc _; simp [batchLoop]
    | cons v vs ih =>
      intro cms alpha m acc h
      cases cms with
      | nil => simp at h
      | cons c cms => rw [List.cons_append, batchLoop, batchLoop, ih cms _ _ _ (by simpa using h)]
  unfold batch challengeField
  simp only
  rw [this vs cms _ _ _ h]

/-! ### The hypotheses are met -/

open Verif.AnonCreds (exPairing)

/-- the linear combination itself -/
def plainMsm (s g : List (ZMod 101)) : Res (ZMod 101) := .ok (List.zipWith (fun a b => a • b) s g).sum

theorem plainMsm_correct : MsmCorrect plainMsm := fun _ _ _ => rfl

theorem exPairing_nonDegenerate : NonDegenerate exPairing where
  separates := by intro a h; simpa [exPairing] using h
  base := by simp [exPairing]

/-- opening `1 + 2X + 3X²` at 5 with secret 9: the value 86 and no other one -/
example : ∃ cm proof, commit plainMsm (setup exPairing 4 9) [1, 2, 3] = .ok cm ∧
    prove plainMsm (setup exPairing 4 9) [1, 2, 3] 5 3 = .ok proof ∧
    verify exPairing (setup exPairing 4 9) cm 5 86 proof = .ok () ∧ verify exPairing (setup exPairing 4 9) cm 5 87 proof = .err := by
  obtain ⟨cm, proof, h1, h2, h3⟩ :=
    C59_open_complete exPairing plainMsm plainMsm_correct 4 3 9 5 [1, 2, 3] (by simp) (by simp) (by simp)
  have e : (toPoly ([1, 2, 3] : List (ZMod 101))).eval 5 = 86 := by rw [← C57_eval]; decide
  rw [e] at h3
  exact ⟨cm, proof, h1, h2, h3, C59_other_value_rejected exPairing exPairing_nonDegenerate plainMsm plainMsm_correct 4 3 9 5 87
    [1, 2, 3] (by simp) (by simp) (by simp) cm proof h1 h2 (by rw [e]; decide)⟩

/-- two values for one commitment, as a prover who knows the secret can claim -/
example : (9 : ZMod 101) ≠ 5 ∧ ((9 : ZMod 101) - 5)⁻¹ • exPairing.base1 = ((0 : ZMod 101) - 4)⁻¹ • ((0 : ZMod 101) - 1) := by
  exact C59_two_values_extract exPairing exPairing_nonDegenerate 4 9 4 5 4 0 0 1 (by decide +kernel) (by decide +kernel) (by decide)

/-- an oracle that depends on the transcript -/
def exStream (tr : Tr (ZMod 101) (ZMod 101)) (i : Nat) : ZMod 101 := ((tr.length + 3 * i : Nat) : ZMod 101)

/-- a batch of two with honest proofs -/
example : ∃ cms proof tr', commitAll plainMsm (setup exPairing 4 9) [[1, 2, 3], [4, 5]] = cms.map Res.ok ∧
    batchProve exStream plainMsm (setup exPairing 4 9) [] [[1, 2, 3], [4, 5]] 5 3 = .ok (proof, tr') ∧
    batchVerify exStream exPairing (setup exPairing 4 9) [] cms 3 5
      (([[1, 2, 3], [4, 5]] : List (List (ZMod 101))).map fun p => (toPoly p).eval 5) proof = .ok () :=
  C59_batch_complete exPairing plainMsm plainMsm_correct _ [] 4 3 9 5 [[1, 2, 3], [4, 5]] (by simp) (by simp)

/-- the forged values 0 and 0 of `1 + 2X + 3X²` at 5 and `4 + 5X` at 6 for the challenge 7 -/
example : ∃ pf1 pf2, forge plainMsm (setup exPairing 4 9) [1, 2, 3] [4, 5] 5 6 0 0 7 = .ok (pf1, pf2) ∧
    batchVerifyDiffPoints exPairing (setup exPairing 4 9) [(toPoly [(1 : ZMod 101), 2, 3]).eval 9 • exPairing.base1,
      (toPoly [(4 : ZMod 101), 5]).eval 9 • exPairing.base1] [5, 6] [0, 0] [pf1, pf2] 7 = .ok () :=
  C59_known_challenge_forges exPairing plainMsm plainMsm_correct 4 9 5 6 0 0 7 [1, 2, 3] [4, 5] (by simp) (by simp) (by simp)
    (by simp) (by norm_num) (by decide) (by decide)

end Verif.Poly
