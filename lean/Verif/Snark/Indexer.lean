import Verif.Snark.Eval

/-!
C60, continued: the result of the indexer.
-/

namespace Verif.Snark

open Verif.Poly Verif.Plonk Polynomial
open Verif.AnonCreds (Pairing)

variable {F G1 G2 Gt : Type} [Field F] [DecidableEq F] [AddCommGroup G1] [Module F G1] [AddCommGroup G2] [Module F G2]
  [AddCommGroup Gt] [Module F Gt] [DecidableEq Gt]

/-- The domains of a system of `n` gates: `n` is a power of two (the systems are padded, see C44), `rootM` a primitive root of
unity for the domain of the quotient (see C58), `root` the one the indexer derives from it, and the first two representatives
`κ 0 = 1` and `κ 1` outside the larger domain. -/
structure Domain (n : Nat) (rootM root : F) (κ : Nat → F) : Prop where
  pow : ∃ e, n = 2 ^ e
  prim : IsPrimitiveRoot rootM (quotSize n)
  small : quotSize n < 2 ^ 32
  root_eq : root = rootM ^ (quotSize n / n)
  k0 : κ 0 = 1
  k1 : κ 1 ≠ 0
  outside : κ 1 ^ quotSize n ≠ 1

omit [DecidableEq F] in
theorem quotSize_spec {n : Nat} (hn : 0 < n) : n * (quotSize n / n) = quotSize n ∧ 6 * n ≤ quotSize n ∧
    (quotSize n = 6 * n ∨ quotSize n = 16 * n) ∧ (n ≤ 8 → quotSize n = 16 * n) := by
  unfold quotSize
  split
  · rw [Nat.mul_div_cancel_left _ hn]; omega
  · rw [Nat.mul_div_cancel_left _ hn]; omega

namespace Domain
variable {n : Nat} {rootM root : F} {κ : Nat → F} (D : Domain n rootM root κ)
include D

omit [DecidableEq F] in
theorem pos : 0 < n := by
  obtain ⟨e, rfl⟩ := D.pow
  positivity

omit [DecidableEq F] in
theorem valid : ∃ k, n = 2 ^ k ∨ n = 3 * 2 ^ k := by
  obtain ⟨e, h⟩ := D.pow
  exact ⟨e, Or.inl h⟩

omit [DecidableEq F] in
theorem validM : ∃ k, quotSize n = 2 ^ k ∨ quotSize n = 3 * 2 ^ k := by
  obtain ⟨e, h⟩ := D.pow
  rcases (quotSize_spec D.pos).2.2.1 with h' | h'
  · exact ⟨e + 1, Or.inr (by rw [h', h]; ring)⟩
  · exact ⟨e + 4, Or.inl (by rw [h', h]; ring)⟩

omit [DecidableEq F] in
theorem posM : 0 < quotSize n := by
  have := (quotSize_spec D.pos).2.1
  have := D.pos
  omega

omit [DecidableEq F] in
theorem primN : IsPrimitiveRoot root n := by
  rw [D.root_eq]
  have h := (quotSize_spec D.pos).1
  exact D.prim.pow D.posM (by rw [mul_comm]; exact h.symm)

omit [DecidableEq F] in
theorem smallN : n < 2 ^ 32 := by
  have := (quotSize_spec D.pos).2.1
  have := D.small
  omega

omit [DecidableEq F] in
theorem root_pow (i : Nat) : (root ^ i) ^ n = 1 := by
  rw [← pow_mul, mul_comm, pow_mul, D.primN.pow_eq_one, one_pow]

omit [DecidableEq F] in
/-- the coset does not meet the group -/
theorem coset_pow (i : Nat) : (κ 1 * rootM ^ i) ^ n ≠ 1 := by
  intro h
  apply D.outside
  have h1 : ((κ 1 * rootM ^ i) ^ n) ^ (quotSize n / n) = 1 := by rw [h, one_pow]
  rw [← pow_mul, (quotSize_spec D.pos).1, mul_pow, ← pow_mul, mul_comm i, pow_mul, D.prim.pow_eq_one, one_pow, mul_one] at h1
  exact h1

end Domain

/-! ### Interpolation -/

/-- the polynomial with the given values at the powers of the root, as the inverse transform gives it -/
def interp (root : F) (n : Nat) (values : List F) : List F :=
  match ffti root values n with
  | .ok p => p
  | _ => []

theorem interp_spec {n : Nat} {rootM root : F} {κ : Nat → F} (D : Domain n rootM root κ) (values : List F) :
    ffti root values n = .ok (interp root n values) ∧ Normal (interp root n values) ∧ (interp root n values).length ≤ n ∧
      (∀ i < n, (toPoly (interp root n values)).eval (root ^ i) = (values[i]?).getD 0) ∧
      ∀ f : F[X], f.degree < n → (∀ i < n, f.eval (root ^ i) = (values[i]?).getD 0) → f = toPoly (interp root n values) := by
  obtain ⟨p, h1, h2⟩ := C58_ffti_interpolates root values n D.valid D.smallN D.primN
  have : interp root n values = p := by rw [interp, h1]
  rw [this]
  exact ⟨h1, h2⟩

theorem degree_interp {n : Nat} {rootM root : F} {κ : Nat → F} (D : Domain n rootM root κ) (values : List F) :
    (toPoly (interp root n values)).degree < n :=
  lt_of_lt_of_le (toPoly_degree_lt _) (by exact_mod_cast (interp_spec D values).2.2.1)

/-! ### Commitments -/

omit [DecidableEq F] in
theorem zip_sum (G : Nat → G1) (p : List F) :
    (List.zipWith (fun a b => a • b) p ((List.range p.length).map G)).sum = ∑ i ∈ Finset.range p.length, (p[i]?.getD 0) • G i := by
  induction p generalizing G with
  | nil => simp
  | cons a p ih =>
    rw [List.length_cons, List.range_succ_eq_map, List.map_cons, List.zipWith_cons_cons, List.sum_cons, List.map_map,
      Finset.sum_range_succ']
    have := ih (G ∘ Nat.succ)
    rw [this]
    simp [add_comm]

/-- The Lagrange parameters, if there are any and if they are as many as the domain has points, are the commitments to the
Lagrange polynomials of the domain.  Nothing is asked of parameters of another size, except that there is at least one. -/
def LagrangeOk (P : Pairing F G1 G2 Gt) (s root : F) (n : Nat) (lag : Option (Params G1 G2)) : Prop :=
  ∀ lp, lag = some lp → lp.group1 ≠ [] ∧ (lp.group1.length = n → lp.group1 = (List.range n).map fun i =>
    ((Lagrange.basis (Finset.range n) (fun i => root ^ i) i).eval s) • P.base1)

omit [DecidableEq F] [DecidableEq Gt] in
theorem LagrangeOk.use {P : Pairing F G1 G2 Gt} {s root : F} {n : Nat} {lag : Option (Params G1 G2)}
    (h : LagrangeOk P s root n lag) (lp : Params G1 G2) (hlp : useLagrange lag n = some lp) :
    lp.group1 = (List.range n).map fun i => ((Lagrange.basis (Finset.range n) (fun i => root ^ i) i).eval s) • P.base1 := by
  unfold useLagrange at hlp
  cases lag with
  | none => simp at hlp
  | some l =>
    simp only at hlp
    split at hlp
    · rename_i hd
      obtain rfl := Option.some.inj hlp
      obtain ⟨h1, h2⟩ := h l rfl
      have := List.length_pos_iff.mpr h1
      exact h2 (by unfold maxDegree at hd; omega)
    · simp at hlp

omit [DecidableEq Gt] [Module F G2] [Module F Gt] [AddCommGroup Gt] [AddCommGroup G2] in
/-- the commitment with Lagrange parameters is the commitment to the interpolation -/
theorem commit_lagrange (g : G1) (msm : List F → List G1 → Res G1) (hm : MsmCorrect msm) (s : F)
    {n : Nat} {rootM root : F} {κ : Nat → F} (D : Domain n rootM root κ) (lp : Params G1 G2)
    (hlp : lp.group1 = (List.range n).map fun i => ((Lagrange.basis (Finset.range n) (fun i => root ^ i) i).eval s) • g)
    (values : List F) (hv : values ≠ []) (hl : values.length ≤ n) :
    commit msm lp (fromCoefs values) = .ok ((toPoly (interp root n values)).eval s • g) := by
  set p := fromCoefs values with hp
  have hpn : Normal p := normal_trim hv
  have hpl : p.length ≤ values.length := by
    obtain ⟨m, hm, -⟩ := trim_spec values
    have := congrArg List.length hm
    rw [List.length_append] at this
    show (trim values).length ≤ _
    omega
  have hpos := List.length_pos_iff.2 hpn.1
  have hdeg : Poly.degree p + 1 = p.length := by rw [Poly.degree, if_neg (by omega)]; omega
  have hcoef : ∀ i : Nat, p[i]?.getD 0 = values[i]?.getD 0 := by
    intro i
    rw [← coeff_toPoly, ← coeff_toPoly, hp, tp_fromCoefs]
  unfold commit
  rw [hdeg, hlp, if_neg (by rw [List.length_map, List.length_range]; omega), hm _ _ (by simp; omega), ← List.map_take,
    List.take_range, Nat.min_eq_left (by omega), zip_sum]
  refine congrArg Res.ok ?_
  obtain ⟨-, -, -, h4, -⟩ := interp_spec D values
  have hI := Lagrange.eq_interpolate_of_eval_eq (s := Finset.range n) (v := fun i => root ^ i)
    (fun i => (values[i]?).getD 0) (pow_injOn D.primN) (by rw [Finset.card_range]; exact degree_interp D values)
    (fun i hi => h4 i (by simpa using hi))
  rw [hI, Lagrange.interpolate_apply, eval_finsetSum, Finset.sum_smul]
  rw [← Finset.sum_subset (s₁ := Finset.range p.length) (s₂ := Finset.range n)]
  · refine Finset.sum_congr rfl fun i _ => ?_
    rw [hcoef, eval_mul, eval_C, mul_smul]
  · intro i hi
    rw [Finset.mem_range] at hi ⊢
    omega
  · intro i _ hi
    rw [Finset.mem_range] at hi
    rw [eval_mul, eval_C, ← hcoef, List.getElem?_eq_none (by omega)]
    simp

theorem commitColumn_eq (P : Pairing F G1 G2 Gt) (msm : List F → List G1 → Res G1) (hm : MsmCorrect msm) (d : Nat) (s : F)
    {n : Nat} {rootM root : F} {κ : Nat → F} (D : Domain n rootM root κ) (hd : n ≤ d + 1) (lag : Option (Params G1 G2))
    (hlag : LagrangeOk P s root n lag) (values : List F) (hv : values ≠ []) (hl : values.length ≤ n) :
    commitColumn msm (setup P d s) (useLagrange lag n) values (interp root n values) =
      .ok ((toPoly (interp root n values)).eval s • P.base1) := by
  unfold commitColumn
  cases h : useLagrange lag n with
  | none =>
    obtain ⟨-, h2, h3, -⟩ := interp_spec D values
    simp only
    rw [C59_commit P msm hm d s _ h2.1, if_pos (by omega)]
  | some lp => exact commit_lagrange P.base1 msm hm s D lp (hlag.use lp h) values hv hl

/-- the values of a polynomial on the coset -/
noncomputable def onCoset (rootM k1 : F) (m : Nat) (p : F[X]) : List F := (List.range m).map fun i => p.eval (k1 * rootM ^ i)

theorem cosetFft_eq {n : Nat} {rootM root : F} {κ : Nat → F} (D : Domain n rootM root κ) (p : List F) (hp : p ≠ [])
    (hl : p.length ≤ quotSize n) : cosetFft p rootM (quotSize n) (κ 1) = .ok (onCoset rootM (κ 1) (quotSize n) (toPoly p)) :=
  C58_coset_fft_evaluates p rootM (quotSize n) (κ 1) D.validM D.prim hp hl

theorem indexColumn_eq (P : Pairing F G1 G2 Gt) (msm : List F → List G1 → Res G1) (hm : MsmCorrect msm) (d : Nat) (s : F)
    {n : Nat} {rootM root : F} {κ : Nat → F} (D : Domain n rootM root κ) (hd : n ≤ d + 1) (lag : Option (Params G1 G2))
    (hlag : LagrangeOk P s root n lag) (values : List F) (hv : values ≠ []) (hl : values.length ≤ n) :
    indexColumn msm (setup P d s) (useLagrange lag n) root rootM (κ 1) n (quotSize n) values =
      .ok (interp root n values, onCoset rootM (κ 1) (quotSize n) (toPoly (interp root n values)),
        (toPoly (interp root n values)).eval s • P.base1) := by
  obtain ⟨h1, h2, h3, -⟩ := interp_spec D values
  have := (quotSize_spec D.pos).2.1
  unfold indexColumn
  rw [h1, Res.bind_ok, cosetFft_eq D _ h2.1 (by omega), Res.bind_ok, commitColumn_eq P msm hm d s D hd lag hlag values hv hl,
    Res.bind_ok]
  rfl

/-! ### The columns -/

/-- the permutation of the system on positions -/
def sigma (cs : CS F) : Nat → Nat := permAt (computePermutation cs.wiring cs.numVars)

omit [Field F] [DecidableEq F] in
theorem wiring_length (cs : CS F) : cs.wiring.length = 5 * cs.gates.length := by
  simp [CS.wiring]; omega

omit [Field F] [DecidableEq F] in
theorem mem_wiring {cs : CS F} {x : Nat} (h : x ∈ cs.wiring) : ∃ g ∈ cs.gates, x ∈ g.wires := by
  simp only [CS.wiring, List.mem_append, List.mem_map, or_assoc] at h
  rcases h with ⟨g, hg, rfl⟩ | ⟨g, hg, rfl⟩ | ⟨g, hg, rfl⟩ | ⟨g, hg, rfl⟩ | ⟨g, hg, rfl⟩ <;> exact ⟨g, hg, by simp [Gate.wires]⟩

omit [DecidableEq F] in
theorem wiring_lt {cs : CS F} (h : WF cs) : ∀ x ∈ cs.wiring, x < cs.numVars := by
  intro x hx
  obtain ⟨g, hg, hxg⟩ := mem_wiring hx
  exact h.wires g hg x hxg

omit [DecidableEq F] in
theorem perm_eq {cs : CS F} (h : WF cs) :
    computePermutation cs.wiring cs.numVars = (List.range (5 * cs.gates.length)).map (sigma cs) ∧
      ∀ v < 5 * cs.gates.length, sigma cs v < 5 * cs.gates.length := by
  obtain ⟨h1, h2⟩ := computePermutation_spec cs.wiring cs.numVars (wiring_lt h)
  rw [wiring_length] at h1 h2
  constructor
  · refine List.ext_getElem? fun i => ?_
    by_cases hi : i < 5 * cs.gates.length
    · obtain ⟨q, hq, -⟩ := h2 i hi
      rw [hq, List.getElem?_map, List.getElem?_range hi, Option.map_some, sigma, permAt, hq]; rfl
    · rw [List.getElem?_eq_none (by omega), List.getElem?_eq_none (by simp; omega)]
  · intro v hv
    obtain ⟨q, hq, x, -, hx, -⟩ := h2 v hv
    rw [sigma, permAt, hq, Option.getD_some]
    have := (List.getElem?_eq_some_iff.1 hx).1
    rw [wiring_length] at this
    exact this

omit [Field F] [DecidableEq F] in
theorem slice_eq (f : Nat → F) (n j : Nat) (hj : j < 5) :
    slice ((List.range (5 * n)).map f) j n = (List.range n).map fun i => f (j * n + i) := by
  refine List.ext_getElem? fun i => ?_
  rw [slice, List.getElem?_take, List.getElem?_drop]
  by_cases hi : i < n
  · have : j * n + i < 5 * n := by
      have := Nat.mul_le_mul_right n (show j + 1 ≤ 5 by omega)
      rw [add_mul] at this; omega
    rw [if_pos hi, List.getElem?_map, List.getElem?_range this, List.getElem?_map, List.getElem?_range hi]; rfl
  · rw [if_neg hi, List.getElem?_eq_none (by simp; omega)]

omit [DecidableEq F] in
theorem boolColumn_eq : ∀ (is : List Nat) (col : List F), (∀ i ∈ is, i < col.length) →
    ∃ r, boolColumn is col = .ok r ∧ r.length = col.length ∧
      ∀ i : Nat, i < col.length → r[i]? = if i ∈ is then some 1 else col[i]?
  | [], col, _ => ⟨col, rfl, rfl, fun i _ => by simp⟩
  | j :: is, col, h => by
    obtain ⟨r, h1, h2, h3⟩ := boolColumn_eq is (col.set j 1) (fun i hi => by rw [List.length_set]; exact h i (by simp [hi]))
    rw [List.length_set] at h2 h3
    refine ⟨r, by rw [boolColumn, if_pos (h j (by simp)), h1], h2, fun i hi => ?_⟩
    rw [h3 i hi]
    by_cases hm : i ∈ is
    · rw [if_pos hm, if_pos (by simp [hm])]
    · rw [if_neg hm]
      by_cases hij : i = j
      · subst hij
        rw [List.getElem?_set_self hi, if_pos (by simp)]
      · rw [List.getElem?_set_ne (by omega), if_neg (by simp [hij, hm])]

/-- the column of permutation values of wire `j` -/
def sigmaColumn (cs : CS F) (root : F) (κ : Nat → F) (j : Nat) : List F :=
  (List.range cs.gates.length).map fun i => place root κ cs.gates.length (sigma cs (j * cs.gates.length + i))

/-- the column of the boolean selector -/
def boolValues (cs : CS F) : List F := (List.range cs.gates.length).map fun i => if i ∈ cs.boolIdx then 1 else 0

/-- the keys of a system as the interpolations of its columns and their commitments -/
noncomputable def pkOf (s : F) (g : G1) (rootM root : F) (κ : Nat → F) (cs : CS F) : PK G1 F :=
  let n := cs.gates.length
  let m := quotSize n
  let qs := (selectors cs).map (interp root n)
  let ss := (List.range 5).map fun j => interp root n (sigmaColumn cs root κ j)
  let qb := interp root n (boolValues cs)
  { qPolys := qs, sPolys := ss, qbPoly := qb
    vk := { cmQ := qs.map fun p => (toPoly p).eval s • g
            cmS := ss.map fun p => (toPoly p).eval s • g
            cmQb := (toPoly qb).eval s • g
            k := (List.range 5).map κ, root := root, csSize := n, pubCons := cs.pubCons
            lagrange := cs.pubCons.map fun b => (∏ i ∈ (Finset.range n).erase b, (root ^ b - root ^ i))⁻¹ }
    group := (List.range n).map fun i => root ^ i
    cosetQuotient := (List.range m).map fun i => κ 1 * rootM ^ i
    rootM := rootM
    l1Coset := onCoset rootM (κ 1) m (∑ i ∈ Finset.range n, X ^ i)
    zhInvCoset := (List.range m).map fun i => ((κ 1 * rootM ^ i) ^ n - 1)⁻¹
    qCoset := qs.map fun p => onCoset rootM (κ 1) m (toPoly p)
    sCoset := ss.map fun p => onCoset rootM (κ 1) m (toPoly p)
    qbCoset := onCoset rootM (κ 1) m (toPoly qb) }

theorem l1_eq {n : Nat} {rootM root : F} {κ : Nat → F} (D : Domain n rootM root κ) :
    toPoly (interp root n [((n % 2 ^ 32 : Nat) : F)]) = ∑ i ∈ Finset.range n, X ^ i := by
  obtain ⟨-, -, -, -, h5⟩ := interp_spec D [((n % 2 ^ 32 : Nat) : F)]
  refine (h5 _ ?_ ?_).symm
  · refine lt_of_le_of_lt (degree_sum_le _ _) ?_
    rw [Finset.sup_lt_iff (by exact_mod_cast WithBot.bot_lt_coe n)]
    intro i hi
    rw [degree_X_pow]
    exact_mod_cast Finset.mem_range.1 hi
  · intro i hi
    rw [eval_finsetSum]
    simp only [eval_pow, eval_X]
    by_cases h0 : i = 0
    · subst h0
      rw [Nat.mod_eq_of_lt D.smallN]
      simp
    · rw [List.getElem?_eq_none (by simp; omega), Option.getD_none]
      have h1 : root ^ i - 1 ≠ 0 := by
        intro h
        have := D.primN.pow_inj (i := i) (j := 0) hi D.pos (by rw [pow_zero]; exact sub_eq_zero.1 h)
        exact h0 this
      have h2 := geom_sum_mul (root ^ i) n
      rw [D.root_pow, sub_self] at h2
      rcases mul_eq_zero.1 h2 with h | h
      · exact h
      · exact absurd h h1

theorem zh_eq {n : Nat} (hn : 0 < n) : toPoly (fromCoefs ((-1 : F) :: List.replicate (n - 1) 0 ++ [1])) = X ^ n - 1 := by
  rw [tp_fromCoefs, List.cons_append, toPoly, toPoly_append, toPoly_replicate, tp_const, List.length_replicate, C_neg, C_1]
  obtain ⟨m, rfl⟩ : ∃ m, n = m + 1 := ⟨n - 1, by omega⟩
  rw [Nat.add_sub_cancel]
  ring

theorem trim_length_le (l : List F) : (trim l).length ≤ l.length := by
  obtain ⟨m, hm, -⟩ := trim_spec l
  have := congrArg List.length hm
  rw [List.length_append] at this
  omega

/-- C60: for a well-formed system of `n` gates the indexer returns the interpolations of the selector, permutation and boolean
columns, their commitments and their values on the coset, with or without Lagrange parameters. -/
theorem C60_indexer (P : Pairing F G1 G2 Gt) (msm : List F → List G1 → Res G1) (hm : MsmCorrect msm) (d : Nat) (s : F)
    (lag : Option (Params G1 G2)) (rootOf : Nat → Res (Option F)) (κ : Nat → F) (rootM root : F) (cs : CS F) (hwf : WF cs)
    (D : Domain cs.gates.length rootM root κ) (hd : cs.gates.length ≤ d + 1)
    (hroot : rootOf (quotSize cs.gates.length) = .ok (some rootM)) (hlag : LagrangeOk P s root cs.gates.length lag) :
    indexer msm (setup P d s) lag rootOf ((List.range 5).map κ) cs = .ok (pkOf s P.base1 rootM root κ cs) := by
  have hn := D.pos
  have hqs := quotSize_spec hn
  have hcol := fun values hv hl => indexColumn_eq P msm hm d s D hd lag hlag values hv hl
  have hfac : quotSize cs.gates.length / cs.gates.length % quotSize cs.gates.length < quotSize cs.gates.length :=
    Nat.mod_lt _ D.posM
  have hgM := (C60_build_group rootM _ D.posM D.prim).1
  have hg := (C60_build_group root _ hn D.primN).1
  have hfac2 : rootM ^ (quotSize cs.gates.length / cs.gates.length % quotSize cs.gates.length) = root := by
    rw [D.root_eq, ← pow_mod_orderOf rootM (quotSize cs.gates.length / cs.gates.length), ← D.prim.eq_orderOf]
  obtain ⟨hp1, hp2⟩ := perm_eq hwf
  have henc : (computePermutation cs.wiring cs.numVars).mapM (encodePerm ((List.range cs.gates.length).map fun i => root ^ i)
      ((List.range 5).map κ)) = .ok ((List.range (5 * cs.gates.length)).map fun v => place root κ cs.gates.length (sigma cs v)) := by
    rw [mapM_ok _ (place root κ cs.gates.length)]
    · rw [hp1, List.map_map]; rfl
    · intro v hv
      rw [hp1, List.mem_map] at hv
      obtain ⟨p, hp, rfl⟩ := hv
      exact encodePerm_eq root κ D.k0 _ _ hn (hp2 p (List.mem_range.1 hp))
  have hnonempty : ∀ f : Nat → F, (List.range cs.gates.length).map f ≠ [] := by
    intro f h
    have := congrArg List.length h
    rw [List.length_map, List.length_range, List.length_nil] at this; omega
  have hS : (List.range 5).mapM (fun i => indexColumn msm (setup P d s) (useLagrange lag cs.gates.length) root rootM (κ 1)
      cs.gates.length (quotSize cs.gates.length)
      (slice ((List.range (5 * cs.gates.length)).map fun v => place root κ cs.gates.length (sigma cs v)) i cs.gates.length)) =
      .ok ((List.range 5).map fun j => (interp root cs.gates.length (sigmaColumn cs root κ j),
        onCoset rootM (κ 1) (quotSize cs.gates.length) (toPoly (interp root cs.gates.length (sigmaColumn cs root κ j))),
        (toPoly (interp root cs.gates.length (sigmaColumn cs root κ j))).eval s • P.base1)) := by
    refine mapM_ok _ _ _ fun j hj => ?_
    rw [slice_eq _ _ _ (List.mem_range.1 hj)]
    exact hcol _ (hnonempty _) (by simp)
  have hQ : (selectors cs).mapM (fun col => indexColumn msm (setup P d s) (useLagrange lag cs.gates.length) root rootM (κ 1)
      cs.gates.length (quotSize cs.gates.length) col) =
      .ok ((selectors cs).map fun col => (interp root cs.gates.length col,
        onCoset rootM (κ 1) (quotSize cs.gates.length) (toPoly (interp root cs.gates.length col)),
        (toPoly (interp root cs.gates.length col)).eval s • P.base1)) := by
    refine mapM_ok _ _ _ fun col hcl => ?_
    have hlen : col.length = cs.gates.length := by
      simp only [selectors, List.mem_cons, List.not_mem_nil, or_false] at hcl
      rcases hcl with h | h | h | h | h | h | h | h | h | h | h | h | h <;> rw [h, List.length_map]
    refine hcol col ?_ hlen.le
    intro h
    rw [h, List.length_nil] at hlen
    omega
  have hl1 := (interp_spec D [((cs.gates.length % 2 ^ 32 : Nat) : F)])
  have hzhn : fromCoefs ((-1 : F) :: List.replicate (cs.gates.length - 1) 0 ++ [1]) ≠ [] := (normal_trim (by simp)).1
  have hzhl : (fromCoefs ((-1 : F) :: List.replicate (cs.gates.length - 1) 0 ++ [1])).length ≤ quotSize cs.gates.length := by
    refine le_trans (trim_length_le _) ?_
    simp; omega
  have hZ : (onCoset rootM (κ 1) (quotSize cs.gates.length) (X ^ cs.gates.length - 1)).mapM invUnwrap =
      .ok ((List.range (quotSize cs.gates.length)).map fun i => ((κ 1 * rootM ^ i) ^ cs.gates.length - 1)⁻¹) := by
    rw [mapM_ok _ (fun x => x⁻¹)]
    · rw [onCoset, List.map_map]
      refine congrArg Res.ok (List.map_congr_left fun i _ => ?_)
      simp
    · intro x hx
      rw [onCoset, List.mem_map] at hx
      obtain ⟨i, -, rfl⟩ := hx
      rw [invUnwrap, if_neg]
      simp only [eval_sub, eval_pow, eval_X, eval_one]
      exact sub_ne_zero.2 (D.coset_pow i)
  have hL : cs.pubCons.mapM (lagrangeConstant ((List.range cs.gates.length).map fun i => root ^ i)) =
      .ok (cs.pubCons.map fun b => (∏ i ∈ (Finset.range cs.gates.length).erase b, (root ^ b - root ^ i))⁻¹) :=
    mapM_ok _ _ _ fun b hb => C60_lagrange_constant root _ b (hwf.pubCons_lt b hb) D.primN
  obtain ⟨qb, hb1, hb2, hb3⟩ := boolColumn_eq cs.boolIdx (List.replicate cs.gates.length (0 : F)) (by
    intro i hi; rw [List.length_replicate]; exact hwf.bool i hi)
  rw [List.length_replicate] at hb2 hb3
  have hqb : qb = boolValues cs := by
    refine List.ext_getElem? fun i => ?_
    by_cases hi : i < cs.gates.length
    · rw [hb3 i hi, boolValues, List.getElem?_map, List.getElem?_range hi, List.getElem?_replicate, if_pos hi, Option.map_some]
      split <;> rfl
    · rw [List.getElem?_eq_none (by omega), List.getElem?_eq_none (by simp [boolValues]; omega)]
  subst hqb
  have hk1 : index ((List.range 5).map κ) 1 = .ok (κ 1) := index_range κ (by omega)
  unfold indexer
  simp only
  rw [if_neg (show ¬ cs.gates.length = 0 by omega), if_neg (not_not.2 hqs.1), hroot]
  simp only [Res.bind_ok, Res.ofOption_some, hgM, index_range _ hfac, hfac2, hg, hk1, henc, hS, hQ, hl1.1, hL, hb1,
    hcol (boolValues cs) (hnonempty _) (by simp [boolValues])]
  rw [cosetFft_eq D _ hl1.2.1.1 (by have := hl1.2.2.1; omega), Res.bind_ok, l1_eq D, cosetFft_eq D _ hzhn hzhl, Res.bind_ok,
    zh_eq hn, hZ, Res.bind_ok]
  simp only [pkOf, List.map_map, Function.comp_def]
  rfl

end Verif.Snark
