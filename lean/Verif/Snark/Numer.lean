import Verif.Snark.Verify

/-!
The polynomial that the constraints are folded into, its divisibility by the polynomial of the domain, and the quotient that the
prover computes.
-/

namespace Verif.Snark

open Verif.Poly Verif.Plonk Polynomial
open Verif.AnonCreds (Pairing)

section ring
variable {R S : Type} [CommRing R] [CommRing S]

/-- the equation of a gate with selectors `q 0, …, q 12` and wires `w 0, …, w 4` -/
def gateForm (q w : Nat → R) (pi : R) : R :=
  q 0 * w 0 + q 1 * w 1 + q 2 * w 2 + q 3 * w 3 + q 4 * (w 0 * w 1) + q 5 * (w 2 * w 3) + q 6 * 1 + pi
    + q 7 * (w 0 * w 1 * w 2 * w 3 * w 4) + q 8 * w 0 ^ 5 + q 9 * w 1 ^ 5 + q 10 * w 2 ^ 5 + q 11 * w 3 ^ 5 - q 12 * w 4

/-- the step of the permutation accumulator -/
def permForm (beta gamma : R) (w k s : Nat → R) (x z zNext : R) : R :=
  z * ∏ j ∈ Finset.range 5, (w j + gamma + beta * (k j * x)) - zNext * ∏ j ∈ Finset.range 5, (w j + gamma + beta * s j)

/-- gate, permutation step, start of the accumulator and booleans, combined with the powers of `alpha` -/
def numer (beta gamma alpha : R) (q w k s : Nat → R) (x z zNext l1 qb pi : R) : R :=
  gateForm q w pi + alpha * permForm beta gamma w k s x z zNext + alpha ^ 2 * (l1 * (z - 1))
    + alpha ^ 3 * (qb * (w 1 * (w 1 - 1))) + alpha ^ 4 * (qb * (w 2 * (w 2 - 1))) + alpha ^ 5 * (qb * (w 3 * (w 3 - 1)))

theorem gateForm_map (φ : R →+* S) (q w : Nat → R) (pi : R) :
    φ (gateForm q w pi) = gateForm (fun j => φ (q j)) (fun j => φ (w j)) (φ pi) := by
  simp [gateForm]

theorem permForm_map (φ : R →+* S) (beta gamma : R) (w k s : Nat → R) (x z zNext : R) :
    φ (permForm beta gamma w k s x z zNext) =
      permForm (φ beta) (φ gamma) (fun j => φ (w j)) (fun j => φ (k j)) (fun j => φ (s j)) (φ x) (φ z) (φ zNext) := by
  simp [permForm, map_prod]

theorem numer_map (φ : R →+* S) (beta gamma alpha : R) (q w k s : Nat → R) (x z zNext l1 qb pi : R) :
    φ (numer beta gamma alpha q w k s x z zNext l1 qb pi) =
      numer (φ beta) (φ gamma) (φ alpha) (fun j => φ (q j)) (fun j => φ (w j)) (fun j => φ (k j)) (fun j => φ (s j)) (φ x) (φ z)
        (φ zNext) (φ l1) (φ qb) (φ pi) := by
  simp [numer, gateForm_map, permForm_map]

end ring

variable {F G1 G2 Gt : Type} [Field F] [DecidableEq F] [AddCommGroup G1] [Module F G1] [AddCommGroup G2] [Module F G2]
  [AddCommGroup Gt] [Module F Gt] [DecidableEq Gt]

/-- selector `j` as a polynomial -/
noncomputable def selPoly (root : F) (cs : CS F) (j : Nat) : F[X] :=
  toPoly (interp root cs.gates.length ((selectors cs)[j]?.getD []))

/-- permutation column `j` as a polynomial -/
noncomputable def sigmaPoly (root : F) (κ : Nat → F) (cs : CS F) (j : Nat) : F[X] :=
  toPoly (interp root cs.gates.length (sigmaColumn cs root κ j))

/-- the boolean selector as a polynomial -/
noncomputable def boolPoly (root : F) (cs : CS F) : F[X] := toPoly (interp root cs.gates.length (boolValues cs))

/-- the combined constraints as a polynomial, for wire polynomials `w`, accumulator `z` and public inputs `pi` -/
noncomputable def numerPoly (root : F) (κ : Nat → F) (cs : CS F) (beta gamma alpha : F) (w : Nat → F[X]) (z pi : F[X]) : F[X] :=
  numer (C beta) (C gamma) (C alpha) (selPoly root cs) w (fun j => C (κ j)) (sigmaPoly root κ cs) X z (z.comp (C root * X))
    (∑ i ∈ Finset.range cs.gates.length, X ^ i) (boolPoly root cs) pi

omit [AddCommGroup G1] [Module F G1] in
theorem numerPoly_eval (root : F) (κ : Nat → F) (cs : CS F) (beta gamma alpha : F) (w : Nat → F[X]) (z pi : F[X]) (x : F) :
    (numerPoly root κ cs beta gamma alpha w z pi).eval x =
      numer beta gamma alpha (fun j => (selPoly root cs j).eval x) (fun j => (w j).eval x) κ (fun j => (sigmaPoly root κ cs j).eval x) x
        (z.eval x) (z.eval (root * x)) (∑ i ∈ Finset.range cs.gates.length, x ^ i) ((boolPoly root cs).eval x) (pi.eval x) := by
  have := numer_map (evalRingHom x) (C beta) (C gamma) (C alpha) (selPoly root cs) w (fun j => C (κ j)) (sigmaPoly root κ cs) X z
    (z.comp (C root * X)) (∑ i ∈ Finset.range cs.gates.length, X ^ i) (boolPoly root cs) pi
  simp only [coe_evalRingHom, eval_C, eval_X, eval_comp, eval_mul, eval_finsetSum, eval_pow] at this
  exact this

/-! ### On the domain -/

theorem selPoly_eval {rootM root : F} {κ : Nat → F} {cs : CS F} (D : Domain cs.gates.length rootM root κ) {i : Nat} {g : Gate F}
    (hg : cs.gates[i]? = some g) {j : Nat} (hj : j < 13) : (selPoly root cs j).eval (root ^ i) = (g.sels[j]?).getD 0 := by
  have hi := (List.getElem?_eq_some_iff.1 hg).1
  rw [selPoly, (interp_spec D _).2.2.2.1 i hi]
  interval_cases j <;> simp [selectors, Gate.sels, hg]

theorem sigmaPoly_eval {rootM root : F} {κ : Nat → F} {cs : CS F} (D : Domain cs.gates.length rootM root κ) {i : Nat}
    (hi : i < cs.gates.length) (j : Nat) :
    (sigmaPoly root κ cs j).eval (root ^ i) = place root κ cs.gates.length (sigma cs (j * cs.gates.length + i)) := by
  rw [sigmaPoly, (interp_spec D _).2.2.2.1 i hi, sigmaColumn, List.getElem?_map, List.getElem?_range hi]; rfl

theorem boolPoly_eval {rootM root : F} {κ : Nat → F} {cs : CS F} (D : Domain cs.gates.length rootM root κ) {i : Nat}
    (hi : i < cs.gates.length) : (boolPoly root cs).eval (root ^ i) = if i ∈ cs.boolIdx then 1 else 0 := by
  rw [boolPoly, (interp_spec D _).2.2.2.1 i hi, boolValues, List.getElem?_map, List.getElem?_range hi]; rfl

omit [DecidableEq F] in
/-- the first Lagrange polynomial, up to a constant -/
theorem l1_eval {rootM root : F} {κ : Nat → F} {n : Nat} (D : Domain n rootM root κ) {i : Nat} (hi : i < n) :
    ∑ j ∈ Finset.range n, (root ^ i) ^ j = if i = 0 then (n : F) else 0 := by
  by_cases h0 : i = 0
  · subst h0; simp
  · rw [if_neg h0]
    have h1 : root ^ i - 1 ≠ 0 := by
      intro h
      have := D.primN.pow_inj (i := i) (j := 0) hi D.pos (by rw [pow_zero]; exact sub_eq_zero.1 h)
      exact h0 this
    have h2 := geom_sum_mul (root ^ i) n
    rw [D.root_pow, sub_self] at h2
    rcases mul_eq_zero.1 h2 with h | h
    · exact h
    · exact absurd h h1

omit [DecidableEq F] in
theorem gateForm_holds (g : Gate F) (w : Nat → F) (pi : F) :
    gateForm (fun j => (g.sels[j]?).getD 0) (fun j => w ((g.wires[j]?).getD 0)) pi = 0 ↔ Spec.Gate.Holds g w pi := by
  unfold gateForm Spec.Gate.Holds
  simp only [Gate.sels, Gate.wires, List.getElem?_cons_zero, List.getElem?_cons_succ, Option.getD_some]
  constructor
  · intro h; linear_combination h
  · intro h; linear_combination h

omit [DecidableEq F] in
/-- vanishing on the domain is divisibility -/
theorem vanish_iff_dvd {rootM root : F} {κ : Nat → F} {n : Nat} (D : Domain n rootM root κ) (p : F[X]) :
    (∀ i < n, p.eval (root ^ i) = 0) ↔ (X ^ n - 1 : F[X]) ∣ p := by
  constructor
  · intro h
    rw [← nodal_roots D.pos D.primN, Lagrange.nodal]
    refine Finset.prod_dvd_of_coprime ?_ ?_
    · intro a ha b hb hab
      exact isCoprime_X_sub_C_of_isUnit_sub (sub_ne_zero.2 fun h => hab (pow_injOn D.primN ha hb h)).isUnit
    · intro i hi
      rw [dvd_iff_isRoot]
      exact h i (Finset.mem_range.1 hi)
  · rintro ⟨q, rfl⟩ i hi
    rw [eval_mul, eval_sub, eval_pow, eval_X, eval_one, D.root_pow, sub_self, zero_mul]

/-! ### The quotient -/

omit [DecidableEq F] in
theorem index_onCoset (rootM k1 : F) (m point : Nat) (p : F[X]) (h : point < m) :
    index (onCoset rootM k1 m p) point = .ok (p.eval (k1 * rootM ^ point)) :=
  index_range _ h

omit [DecidableEq F] in
theorem mapM_onCoset (rootM k1 : F) (m point : Nat) (ps : List F[X]) (h : point < m) :
    (ps.map (onCoset rootM k1 m)).mapM (fun l => index l point) = .ok (ps.map fun p => p.eval (k1 * rootM ^ point)) := by
  induction ps with
  | nil => simp
  | cons p ps ih => rw [List.map_cons, List.mapM_cons, index_onCoset rootM k1 m point p h, Res.bind_ok, ih]; rfl

/-- one value of the quotient -/
theorem tPoint_eq (s : F) (g : G1) (rootM root : F) (κ : Nat → F) (cs : CS F) (D : Domain cs.gates.length rootM root κ)
    (w : Nat → F[X]) (z pi : F[X]) (beta gamma alpha : F) (point : Nat) (hp : point < quotSize cs.gates.length) :
    tPoint (pkOf s g rootM root κ cs) (((List.range 5).map w).map (onCoset rootM (κ 1) (quotSize cs.gates.length)))
        (onCoset rootM (κ 1) (quotSize cs.gates.length) pi) (onCoset rootM (κ 1) (quotSize cs.gates.length) z) beta gamma alpha
        (quotSize cs.gates.length) (quotSize cs.gates.length / cs.gates.length) point =
      .ok ((numerPoly root κ cs beta gamma alpha w z pi).eval (κ 1 * rootM ^ point) *
        ((κ 1 * rootM ^ point) ^ cs.gates.length - 1)⁻¹) := by
  set m := quotSize cs.gates.length with hm
  set x := κ 1 * rootM ^ point with hx
  have hnext : κ 1 * rootM ^ ((point + m / cs.gates.length) % m) = root * x := by
    rw [hx, D.root_eq, ← hm]
    have : rootM ^ ((point + m / cs.gates.length) % m) = rootM ^ (point + m / cs.gates.length) := by
      conv_rhs => rw [← Nat.mod_add_div (point + m / cs.gates.length) m, pow_add, pow_mul, D.prim.pow_eq_one, one_pow, mul_one]
    rw [this, pow_add]
    ring
  have hq : (pkOf s g rootM root κ cs).qCoset =
      ((List.range 13).map (selPoly root cs)).map (onCoset rootM (κ 1) m) := by
    simp [pkOf, selectors, List.range_succ, selPoly, hm]
  have hs : (pkOf s g rootM root κ cs).sCoset = ((List.range 5).map (sigmaPoly root κ cs)).map (onCoset rootM (κ 1) m) := by
    simp [pkOf, sigmaPoly, hm]
  have hqb : (pkOf s g rootM root κ cs).qbCoset = onCoset rootM (κ 1) m (boolPoly root cs) := rfl
  have hl : (pkOf s g rootM root κ cs).l1Coset = onCoset rootM (κ 1) m (∑ i ∈ Finset.range cs.gates.length, X ^ i) := rfl
  have hc : (pkOf s g rootM root κ cs).cosetQuotient = (List.range m).map fun i => κ 1 * rootM ^ i := rfl
  have hz : (pkOf s g rootM root κ cs).zhInvCoset = (List.range m).map fun i => ((κ 1 * rootM ^ i) ^ cs.gates.length - 1)⁻¹ := rfl
  have hk : (pkOf s g rootM root κ cs).vk.k = (List.range 5).map κ := rfl
  have hgate : evalGateFunc (((List.range 5).map w).map fun p => p.eval x) (((List.range 13).map (selPoly root cs)).map fun p => p.eval x)
      (pi.eval x) = some (gateForm (fun j => (selPoly root cs j).eval x) (fun j => (w j).eval x) (pi.eval x)) := by
    simp only [List.range_succ, List.range_zero, List.nil_append, List.cons_append, List.map_cons, List.map_nil, evalGateFunc, gateForm]
    congr 1; ring
  unfold tPoint
  rw [mapM_onCoset _ _ _ _ _ hp, Res.bind_ok, hq, mapM_onCoset _ _ _ _ _ hp, Res.bind_ok, index_onCoset _ _ _ _ _ hp, Res.bind_ok,
    ← hx, hgate]
  show (do
    let zV ← index (onCoset rootM (κ 1) m z) point
    _) = _
  rw [index_onCoset _ _ _ _ _ hp, Res.bind_ok, hc, index_range _ hp, Res.bind_ok, hk]
  rw [foldlM_ok _ (fun t j => t * ((w j).eval x + gamma + beta * (κ j * x)))]
  swap
  · intro j hj b
    rw [List.map_map, index_range _ (List.mem_range.1 hj), Res.bind_ok, index_range _ (List.mem_range.1 hj), Res.bind_ok]
    rfl
  rw [Res.bind_ok, index_onCoset _ _ _ _ _ (Nat.mod_lt _ D.posM), Res.bind_ok, hs, mapM_onCoset _ _ _ _ _ hp, Res.bind_ok, hl,
    index_onCoset _ _ _ _ _ hp, Res.bind_ok, hqb, index_onCoset _ _ _ _ _ hp, Res.bind_ok, List.map_map,
    index_range _ (show 1 < 5 by omega), Res.bind_ok, index_range _ (show 2 < 5 by omega), Res.bind_ok,
    index_range _ (show 3 < 5 by omega), Res.bind_ok, hz, index_range _ hp, Res.bind_ok, hnext, ← hx, foldl_mul_range, numerPoly_eval]
  refine congrArg Res.ok (congrArg (· * _) ?_)
  simp only [numer, permForm, List.map_map, Function.comp_def, List.zip_map', List.foldl_map, foldl_mul_range, eval_finsetSum, eval_pow,
    eval_X]
  ring

omit [AddCommGroup G1] [Module F G1] [DecidableEq F] in
theorem exists_coefs (p : F[X]) : ∃ l : List F, l ≠ [] ∧ toPoly l = p := by
  refine ⟨(List.range (p.natDegree + 1)).map p.coeff, by simp, ?_⟩
  ext i
  rw [coeff_toPoly]
  by_cases hi : i < p.natDegree + 1
  · rw [List.getElem?_map, List.getElem?_range hi]; rfl
  · rw [List.getElem?_eq_none (by simp; omega), coeff_eq_zero_of_natDegree_lt (by omega)]; rfl

theorem exists_normal (p : F[X]) : ∃ l : List F, Normal l ∧ toPoly l = p := by
  obtain ⟨l, h1, h2⟩ := exists_coefs p
  exact ⟨trim l, normal_trim h1, by rw [toPoly_trim, h2]⟩

/-- C71: when the combined constraints are a multiple of the polynomial of the domain and the quotient is not too long, `t_poly`
returns the quotient. -/
theorem C71_quotient (s : F) (g : G1) (rootM root : F) (κ : Nat → F) (cs : CS F) (D : Domain cs.gates.length rootM root κ)
    (w : Nat → List F) (z pi : List F) (beta gamma alpha : F)
    (hw : ∀ j < 5, w j ≠ [] ∧ (w j).length ≤ quotSize cs.gates.length) (hz : z ≠ [] ∧ z.length ≤ quotSize cs.gates.length)
    (hpi : pi ≠ [] ∧ pi.length ≤ quotSize cs.gates.length) (T : F[X])
    (hT : numerPoly root κ cs beta gamma alpha (fun j => toPoly (w j)) (toPoly z) (toPoly pi) = (X ^ cs.gates.length - 1) * T)
    (hd : T.natDegree < quotSize cs.gates.length) :
    ∃ t, tPoly (pkOf s g rootM root κ cs) cs.gates.length ((List.range 5).map w) z beta gamma alpha pi = .ok t ∧ Normal t ∧
      toPoly t = T := by
  obtain ⟨t, t1, t2⟩ := exists_normal T
  refine ⟨t, ?_, t1, t2⟩
  have htl : t.length ≤ quotSize cs.gates.length := by
    have := natDegree_normal t1
    rw [t2] at this
    omega
  have hk1 : index (pkOf s g rootM root κ cs).vk.k 1 = .ok (κ 1) := index_range κ (show 1 < 5 by omega)
  have hm : (pkOf s g rootM root κ cs).rootM = rootM := rfl
  have hn := D.pos
  unfold tPoly
  simp only
  rw [if_neg (by omega), if_neg (not_not.2 (quotSize_spec hn).1), hk1, Res.bind_ok, hm,
    mapM_ok _ (fun p => onCoset rootM (κ 1) (quotSize cs.gates.length) (toPoly p)), Res.bind_ok,
    cosetFft_eq D _ hpi.1 hpi.2, Res.bind_ok, cosetFft_eq D _ hz.1 hz.2, Res.bind_ok]
  swap
  · intro p hp
    obtain ⟨j, hj, rfl⟩ := List.mem_map.1 hp
    exact cosetFft_eq D _ (hw j (List.mem_range.1 hj)).1 (hw j (List.mem_range.1 hj)).2
  rw [mapM_ok _ (fun point => T.eval (κ 1 * rootM ^ point)), Res.bind_ok, if_neg D.k1]
  · have := C58_coset_ffti_inverts t rootM (quotSize cs.gates.length) (κ 1) D.k1 D.validM D.small D.prim t1 htl
    rw [cosetFft_eq D _ t1.1 htl, t2] at this
    exact this
  · intro point hp
    have e := tPoint_eq s g rootM root κ cs D (fun j => toPoly (w j)) (toPoly z) (toPoly pi) beta gamma alpha point
      (List.mem_range.1 hp)
    rw [hT, eval_mul, eval_sub, eval_pow, eval_X, eval_one, mul_right_comm,
      mul_inv_cancel₀ (sub_ne_zero.2 (D.coset_pow point)), one_mul] at e
    rw [List.map_map] at e ⊢
    exact e

/-! ### Degrees -/

theorem natDegree_interp' {n : Nat} {rootM root : F} {κ : Nat → F} (D : Domain n rootM root κ) (values : List F) :
    (toPoly (interp root n values)).natDegree ≤ n - 1 := by
  have h := interp_spec D values
  have := natDegree_lt_length h.2.1.1
  have := h.2.2.1
  omega

/-- the degree of the combined constraints -/
theorem numerPoly_natDegree {rootM root : F} {κ : Nat → F} {cs : CS F} (D : Domain cs.gates.length rootM root κ)
    (beta gamma alpha : F) (w : Nat → F[X]) (z pi : F[X]) (hw : ∀ j < 5, (w j).natDegree ≤ cs.gates.length + 1)
    (hz : z.natDegree ≤ cs.gates.length + 2) (hpi : pi.natDegree ≤ cs.gates.length + 1) :
    (numerPoly root κ cs beta gamma alpha w z pi).natDegree ≤ 6 * cs.gates.length + 7 := by
  have hn := D.pos
  generalize hnn : cs.gates.length = n at *
  have hq : ∀ j, (selPoly root cs j).natDegree ≤ n - 1 := fun j => by rw [selPoly, hnn]; exact natDegree_interp' D _
  have hs : ∀ j, (sigmaPoly root κ cs j).natDegree ≤ n - 1 := fun j => by rw [sigmaPoly, hnn]; exact natDegree_interp' D _
  have hb : (boolPoly root cs).natDegree ≤ n - 1 := by rw [boolPoly, hnn]; exact natDegree_interp' D _
  have hl1 : (∑ i ∈ Finset.range n, X ^ i : F[X]).natDegree ≤ n - 1 := by
    refine natDegree_sum_le_of_forall_le _ _ fun i hi => ?_
    rw [natDegree_X_pow]
    have := Finset.mem_range.1 hi
    omega
  have hadd : ∀ {a b : F[X]} {d : Nat}, a.natDegree ≤ d → b.natDegree ≤ d → (a + b).natDegree ≤ d :=
    fun ha hb => natDegree_add_le_of_degree_le ha hb
  have hsub : ∀ {a b : F[X]} {d : Nat}, a.natDegree ≤ d → b.natDegree ≤ d → (a - b).natDegree ≤ d :=
    fun {a b d} ha hb => le_trans (natDegree_sub_le a b) (max_le ha hb)
  have hmul : ∀ {a b : F[X]} {d e f : Nat}, a.natDegree ≤ d → b.natDegree ≤ e → d + e ≤ f → (a * b).natDegree ≤ f :=
    fun ha hb h => le_trans (natDegree_mul_le_of_le ha hb) h
  have hpow : ∀ {a : F[X]} {d f : Nat} (k : Nat), a.natDegree ≤ d → k * d ≤ f → (a ^ k).natDegree ≤ f :=
    fun k ha h => le_trans (natDegree_pow_le_of_le k ha) h
  have hC : ∀ c : F, (C c).natDegree ≤ 0 := fun c => by rw [natDegree_C]
  have hone : (1 : F[X]).natDegree ≤ 0 := by rw [natDegree_one]
  have hzn : (z.comp (C root * X)).natDegree ≤ n + 2 := by
    refine le_trans natDegree_comp_le ?_
    have : (C root * X).natDegree ≤ 1 := hmul (hC root) natDegree_X_le (le_refl _)
    calc z.natDegree * (C root * X).natDegree ≤ (n + 2) * 1 := Nat.mul_le_mul hz this
      _ = n + 2 := by omega
  have hprod : ∀ (f : Nat → F[X]), (∀ j < 5, (f j).natDegree ≤ n + 1) → (∏ j ∈ Finset.range 5, f j).natDegree ≤ 5 * (n + 1) := by
    intro f hf
    refine le_trans (natDegree_prod_le _ _) ?_
    refine le_trans (Finset.sum_le_sum (g := fun _ => n + 1) fun j hj => hf j (Finset.mem_range.1 hj)) ?_
    simp
  have hw0 := hw 0 (by omega)
  have hw1 := hw 1 (by omega)
  have hw2 := hw 2 (by omega)
  have hw3 := hw 3 (by omega)
  have hw4 := hw 4 (by omega)
  have hbit : ∀ {a : F[X]}, a.natDegree ≤ n + 1 → (a * (a - 1)).natDegree ≤ 2 * (n + 1) := fun ha =>
    hmul ha (hsub ha (le_trans hone (Nat.zero_le _))) (by omega)
  have hfac1 : ∀ j < 5, (w j + C gamma + C beta * (C (κ j) * X)).natDegree ≤ n + 1 := fun j hj =>
    hadd (hadd (hw j hj) (le_trans (hC _) (Nat.zero_le _))) (hmul (hC _) (hmul (hC _) natDegree_X_le (le_refl _)) (by omega))
  have hfac2 : ∀ j < 5, (w j + C gamma + C beta * sigmaPoly root κ cs j).natDegree ≤ n + 1 := fun j hj =>
    hadd (hadd (hw j hj) (le_trans (hC _) (Nat.zero_le _))) (hmul (hC _) (hs j) (by omega))
  unfold numerPoly numer
  rw [hnn]
  refine hadd (hadd (hadd (hadd (hadd ?_ ?_) ?_) ?_) ?_) ?_
  · unfold gateForm
    refine hsub (hadd (hadd (hadd (hadd (hadd (hadd (hadd (hadd (hadd (hadd (hadd (hadd ?_ ?_) ?_) ?_) ?_) ?_) ?_) ?_) ?_) ?_) ?_) ?_) ?_) ?_
    · exact hmul (hq 0) hw0 (by omega)
    · exact hmul (hq 1) hw1 (by omega)
    · exact hmul (hq 2) hw2 (by omega)
    · exact hmul (hq 3) hw3 (by omega)
    · exact hmul (hq 4) (hmul hw0 hw1 (le_refl _)) (by omega)
    · exact hmul (hq 5) (hmul hw2 hw3 (le_refl _)) (by omega)
    · exact hmul (hq 6) hone (by omega)
    · omega
    · exact hmul (hq 7) (hmul (hmul (hmul (hmul hw0 hw1 (le_refl _)) hw2 (le_refl _)) hw3 (le_refl _)) hw4 (le_refl _)) (by omega)
    · exact hmul (hq 8) (hpow 5 hw0 (le_refl _)) (by omega)
    · exact hmul (hq 9) (hpow 5 hw1 (le_refl _)) (by omega)
    · exact hmul (hq 10) (hpow 5 hw2 (le_refl _)) (by omega)
    · exact hmul (hq 11) (hpow 5 hw3 (le_refl _)) (by omega)
    · exact hmul (hq 12) hw4 (by omega)
  · refine hmul (hC alpha) (d := 0) (e := 6 * n + 7) ?_ (by omega)
    exact hsub (hmul hz (hprod _ hfac1) (by omega)) (hmul hzn (hprod _ hfac2) (by omega))
  · exact hmul (hpow 2 (hC alpha) (le_refl _)) (hmul hl1 (hsub hz (le_trans hone (Nat.zero_le _))) (le_refl _)) (by omega)
  · exact hmul (hpow 3 (hC alpha) (le_refl _)) (hmul hb (hbit hw1) (le_refl _)) (by omega)
  · exact hmul (hpow 4 (hC alpha) (le_refl _)) (hmul hb (hbit hw2) (le_refl _)) (by omega)
  · exact hmul (hpow 5 (hC alpha) (le_refl _)) (hmul hb (hbit hw3) (le_refl _)) (by omega)

end Verif.Snark
