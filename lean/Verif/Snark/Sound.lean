import Verif.Snark.Complete

/-!
C70, the part that holds: a prover that commits to polynomials before it learns the challenges is caught, when the challenge that
separates the two openings is drawn after the opening proofs.
-/

namespace Verif.Snark

open Verif.Poly Verif.Plonk Polynomial
open Verif.AnonCreds (Pairing)

variable {F G1 G2 Gt : Type} [Field F] [DecidableEq F] [AddCommGroup G1] [Module F G1] [AddCommGroup G2] [Module F G2]
  [AddCommGroup Gt] [Module F Gt] [DecidableEq Gt]

/-! ### The permutation argument -/

/-- `∏ (γ + pᵥ)` as a polynomial in `γ` -/
noncomputable def shifted {R : Type} [CommRing R] (p : Nat → R) (m : Nat) : R[X] := ∏ v ∈ Finset.range m, (X + C (p v))

omit [DecidableEq F] in
theorem shifted_coeff (p : Nat → F[X]) (hp : ∀ v, (p v).natDegree ≤ 1) (m k : Nat) : ((shifted p m).coeff k).natDegree ≤ m := by
  induction m generalizing k with
  | zero =>
    simp only [shifted, Finset.range_zero, Finset.prod_empty, coeff_one]
    split <;> simp
  | succ m ih =>
    rw [shifted, Finset.prod_range_succ, mul_comm, add_mul, coeff_add, coeff_C_mul]
    refine natDegree_add_le_of_degree_le ?_ ?_
    · cases k with
      | zero => simp
      | succ k => rw [coeff_X_mul]; exact le_trans (ih k) (by omega)
    · refine le_trans natDegree_mul_le ?_
      have := ih k
      have := hp m
      unfold shifted at *
      omega

theorem shifted_natDegree {R : Type} [CommRing R] (p : Nat → R) (m : Nat) : (shifted p m).natDegree ≤ m := by
  refine le_trans (natDegree_prod_le _ _) (le_trans (Finset.sum_le_card_nsmul _ _ 1 fun v _ => ?_) (by simp))
  exact natDegree_add_le_of_degree_le natDegree_X_le (by simp)

theorem shifted_map {R S : Type} [CommRing R] [CommRing S] (φ : R →+* S) (p : Nat → R) (m : Nat) :
    (shifted p m).map φ = shifted (fun v => φ (p v)) m := by
  simp [shifted, Polynomial.map_prod]

theorem shifted_eval {R : Type} [CommRing R] (p : Nat → R) (m : Nat) (x : R) :
    (shifted p m).eval x = ∏ v ∈ Finset.range m, (x + p v) := by
  simp [shifted, eval_prod]

/-- the factors can be read off -/
theorem shifted_eq {R : Type} [CommRing R] [IsDomain R] (p q : Nat → R) (m : Nat) (h : shifted p m = shifted q m) :
    ∀ v < m, ∃ v' < m, p v' = q v := by
  have hroots : ∀ p : Nat → R, (shifted p m).roots = (Multiset.range m).map fun v => -p v := by
    intro p
    have : shifted p m = (((Multiset.range m).map fun v => -p v).map fun a => X - C a).prod := by
      rw [Multiset.map_map, shifted]
      show (Multiset.map _ _).prod = _
      congr 1
      refine Multiset.map_congr rfl fun v _ => ?_
      simp
    rw [this, roots_multiset_prod_X_sub_C]
  intro v hv
  have h1 : -q v ∈ (shifted p m).roots := by
    rw [h, hroots]
    exact Multiset.mem_map.2 ⟨v, Multiset.mem_range.2 hv, rfl⟩
  rw [hroots] at h1
  obtain ⟨v', h2, h3⟩ := Multiset.mem_map.1 h1
  exact ⟨v', Multiset.mem_range.1 h2, neg_injective h3⟩

/-- when the values are not invariant under the permutation, the two products of the accumulator differ except for few `β` and `γ` -/
theorem products_differ (W pl : Nat → F) (σ : Nat → Nat) (m : Nat) (hσ : ∀ v < m, σ v < m)
    (hpl : ∀ a < m, ∀ b < m, pl a = pl b → a = b) (hbad : ∃ v < m, W (σ v) ≠ W v) :
    ∃ B : Finset F, B.card ≤ m ∧ ∀ beta ∉ B, ∃ Γ : Finset F, Γ.card ≤ m ∧ ∀ gamma ∉ Γ,
      ∏ v ∈ Finset.range m, (W v + gamma + beta * pl v) ≠ ∏ v ∈ Finset.range m, (W v + gamma + beta * pl (σ v)) := by
  let p : Nat → F[X] := fun v => C (W v) + X * C (pl v)
  let q : Nat → F[X] := fun v => C (W v) + X * C (pl (σ v))
  have hdeg : ∀ a b : F, (C a + X * C b : F[X]).natDegree ≤ 1 := fun a b =>
    natDegree_add_le_of_degree_le (by simp) (le_trans natDegree_mul_le (by simp))
  have hne : shifted p m ≠ shifted q m := by
    intro h
    obtain ⟨v, hv, hw⟩ := hbad
    obtain ⟨v', hv', he⟩ := shifted_eq p q m h v hv
    have h0 : W v' = W v := by simpa [p, q] using congrArg (fun f => coeff f 0) he
    have h1 : pl v' = pl (σ v) := by simpa [p, q, coeff_C] using congrArg (fun f => coeff f 1) he
    rw [hpl _ hv' _ (hσ v hv) h1] at h0
    exact hw h0
  obtain ⟨k, hk⟩ : ∃ k, (shifted p m).coeff k ≠ (shifted q m).coeff k := by
    by_contra hc
    push Not at hc
    exact hne (Polynomial.ext hc)
  have hk' : (shifted p m).coeff k - (shifted q m).coeff k ≠ 0 := sub_ne_zero.2 hk
  refine ⟨((shifted p m).coeff k - (shifted q m).coeff k).roots.toFinset, ?_, ?_⟩
  · refine le_trans (Multiset.toFinset_card_le _) (le_trans (card_roots' _) (le_trans (natDegree_sub_le _ _) (max_le ?_ ?_)))
    · exact shifted_coeff p (fun v => hdeg _ _) m k
    · exact shifted_coeff q (fun v => hdeg _ _) m k
  intro beta hb
  have hb' : ((shifted p m).coeff k - (shifted q m).coeff k).eval beta ≠ 0 := by
    intro h
    exact hb (Multiset.mem_toFinset.2 ((mem_roots hk').2 h))
  set pb : Nat → F := fun v => (p v).eval beta with hpb
  set qb : Nat → F := fun v => (q v).eval beta with hqb
  have hpm : (shifted p m).map (evalRingHom beta) = shifted pb m := shifted_map _ _ _
  have hqm : (shifted q m).map (evalRingHom beta) = shifted qb m := shifted_map _ _ _
  have hne' : shifted pb m - shifted qb m ≠ 0 := by
    intro h
    apply hb'
    have := congrArg (fun f => coeff f k) (sub_eq_zero.1 h)
    simp only [← hpm, ← hqm, coeff_map] at this
    rw [eval_sub, sub_eq_zero]
    exact this
  refine ⟨(shifted pb m - shifted qb m).roots.toFinset, ?_, ?_⟩
  · exact le_trans (Multiset.toFinset_card_le _) (le_trans (card_roots' _)
      (le_trans (natDegree_sub_le _ _) (max_le (shifted_natDegree _ _) (shifted_natDegree _ _))))
  intro gamma hg h
  apply hg
  rw [Multiset.mem_toFinset, mem_roots hne', IsRoot, eval_sub, shifted_eval, shifted_eval, sub_eq_zero]
  refine Eq.trans ?_ (h.trans ?_)
  · refine Finset.prod_congr rfl fun v _ => ?_
    simp only [hpb, p, eval_add, eval_mul, eval_C, eval_X]
    ring
  · refine Finset.prod_congr rfl fun v _ => ?_
    simp only [hqb, q, eval_add, eval_mul, eval_C, eval_X]
    ring

omit [DecidableEq F] in
/-- an accumulator that starts at one and satisfies every step forces the products to agree -/
theorem accum_products (V N D : Nat → F) (n : Nat) (h0 : V 0 = 1) (hstep : ∀ i < n, V i * N i = V ((i + 1) % n) * D i) :
    ∏ i ∈ Finset.range n, N i = ∏ i ∈ Finset.range n, D i := by
  have hk : ∀ k < n, V k * ∏ i ∈ Finset.range k, D i = ∏ i ∈ Finset.range k, N i := by
    intro k
    induction k with
    | zero => intro _; simp [h0]
    | succ k ih =>
      intro hk
      have h1 := hstep k (by omega)
      rw [Nat.mod_eq_of_lt hk] at h1
      rw [Finset.prod_range_succ, Finset.prod_range_succ, ← ih (by omega)]
      linear_combination (-(∏ i ∈ Finset.range k, D i)) * h1
  cases n with
  | zero => simp
  | succ n =>
    have h1 := hstep n (by omega)
    rw [Nat.mod_self, h0] at h1
    rw [Finset.prod_range_succ, Finset.prod_range_succ, ← hk n (by omega)]
    linear_combination (∏ i ∈ Finset.range n, D i) * h1

/-! ### Rows -/

/-- the six parts of the combined constraints in row `i` -/
noncomputable def rowParts (root : F) (κ : Nat → F) (cs : CS F) (beta gamma : F) (w : Nat → F[X]) (z pi : F[X]) (x : F) : List F :=
  let q := fun j => (selPoly root cs j).eval x
  let W := fun j => (w j).eval x
  let qb := (boolPoly root cs).eval x
  [gateForm q W (pi.eval x),
   permForm beta gamma W κ (fun j => (sigmaPoly root κ cs j).eval x) x (z.eval x) (z.eval (root * x)),
   (∑ i ∈ Finset.range cs.gates.length, x ^ i) * (z.eval x - 1),
   qb * (W 1 * (W 1 - 1)), qb * (W 2 * (W 2 - 1)), qb * (W 3 * (W 3 - 1))]

theorem numer_rowParts (root : F) (κ : Nat → F) (cs : CS F) (beta gamma alpha : F) (w : Nat → F[X]) (z pi : F[X]) (x : F) :
    (numerPoly root κ cs beta gamma alpha w z pi).eval x = combine alpha (rowParts root κ cs beta gamma w z pi x) := by
  rw [numerPoly_eval]
  simp only [numer, rowParts, combine, smul_eq_mul]
  ring

namespace Spec

/-- the assignment that the wire polynomials of a prover hold: every variable has the value of the first wire that carries it -/
noncomputable def readOff (root : F) (cs : CS F) (w : Nat → F[X]) (v : Nat) : F :=
  (w (cs.wiring.idxOf v / cs.gates.length)).eval (root ^ (cs.wiring.idxOf v % cs.gates.length))

end Spec

open Spec (readOff)

/-- if all parts vanish in all rows and the wires are invariant under the permutation, the assignment they hold is satisfying -/
theorem rows_sat {rootM root : F} {κ : Nat → F} {cs : CS F} (hwf : WF cs) (D : Domain cs.gates.length rootM root κ) (pi : List F)
    (beta gamma : F) (w : Nat → F[X]) (z : F[X])
    (hrow : ∀ i < cs.gates.length, ∀ e ∈ rowParts root κ cs beta gamma w z (toPoly (piInterp root cs.gates.length cs.pubCons pi))
      (root ^ i), e = 0)
    (W : Nat → F) (hW : ∀ j < 5, ∀ i < cs.gates.length, (w j).eval (root ^ i) = W (j * cs.gates.length + i))
    (hinv : ∀ v < 5 * cs.gates.length, W (sigma cs v) = W v) : Plonk.Spec.Sat cs (readOff root cs w) pi := by
  set n := cs.gates.length with hn
  have hlen := wiring_length cs
  obtain ⟨wit, hw1, hw2⟩ := (C48_invariant_iff_assignment cs.wiring cs.numVars (wiring_lt hwf) ((List.range (5 * n)).map W)
    (by rw [hlen]; simp [hn])).1 (by
      intro p hp
      rw [hlen] at hp
      have hs := (perm_eq hwf).2 p hp
      show ((List.range (5 * n)).map W)[sigma cs p]? = _
      rw [List.getElem?_map, List.getElem?_map, List.getElem?_range hs, List.getElem?_range hp, Option.map_some, Option.map_some,
        hinv p hp])
  rw [extend_eq hwf wit hw1, ← hn] at hw2
  have hval : ∀ v < 5 * n, wireVal cs wit v = W v := by
    intro v hv
    have := congrArg (fun l : List F => l[v]?) (Option.some.inj hw2)
    simp only [List.getElem?_map, List.getElem?_range hv, Option.map_some] at this
    exact Option.some.inj this
  -- the assignment agrees with `wit` on all variables that occur
  have hread : ∀ (i : Nat) (g : Gate F), cs.gates[i]? = some g → ∀ j < 5, readOff root cs w ((g.wires[j]?).getD 0) = wit[(g.wires[j]?).getD 0]?.getD 0 := by
    intro i g hg j hj
    have hi : i < n := (List.getElem?_eq_some_iff.1 hg).1
    have hg5 : g.wires.length = 5 := rfl
    have hlt : j * n + i < 5 * n := by
      have : j * n ≤ 4 * n := Nat.mul_le_mul_right n (by omega)
      omega
    have hmem : (g.wires[j]?).getD 0 ∈ cs.wiring := by
      have h1 := wiring_get hg hj
      rw [List.getElem?_eq_getElem (by omega : j < g.wires.length)] at h1 ⊢
      exact List.mem_of_getElem? h1
    set v := (g.wires[j]?).getD 0 with hv
    have hk := List.idxOf_lt_length_of_mem hmem
    rw [hlen] at hk
    have hn0 : 0 < n := by omega
    have hdiv : cs.wiring.idxOf v / n < 5 := by
      rw [Nat.div_lt_iff_lt_mul hn0]
      exact hk
    have := hW _ hdiv _ (Nat.mod_lt (cs.wiring.idxOf v) hn0)
    rw [mul_comm, Nat.div_add_mod] at this
    have hget : cs.wiring[cs.wiring.idxOf v]? = some v := by
      rw [List.getElem?_eq_getElem (by rw [hlen]; exact hk), List.getElem_idxOf]
    rw [readOff, ← hn, this, ← hval _ hk, wireVal, hget]
    rfl
  suffices hsat : Plonk.Spec.Sat cs (fun v => wit[v]?.getD 0) pi by
    intro i g hg
    obtain ⟨h1, h2⟩ := hsat i g hg
    have hr := hread i g hg
    have e0 : readOff root cs w g.w0 = wit[g.w0]?.getD 0 := hr 0 (by omega)
    have e1 : readOff root cs w g.w1 = wit[g.w1]?.getD 0 := hr 1 (by omega)
    have e2 : readOff root cs w g.w2 = wit[g.w2]?.getD 0 := hr 2 (by omega)
    have e3 : readOff root cs w g.w3 = wit[g.w3]?.getD 0 := hr 3 (by omega)
    have e4 : readOff root cs w g.w4 = wit[g.w4]?.getD 0 := hr 4 (by omega)
    unfold Plonk.Spec.Gate.Holds at h1 ⊢
    simp only [e0, e1, e2, e3, e4]
    exact ⟨h1, h2⟩
  intro i g hg
  have hi : i < n := (List.getElem?_eq_some_iff.1 hg).1
  have hwg : ∀ j < 5, (w j).eval (root ^ i) = wit[(g.wires[j]?).getD 0]?.getD 0 := fun j hj => by
    have hlt : j * n + i < 5 * n := by
      have : j * n ≤ 4 * n := Nat.mul_le_mul_right n (by omega)
      omega
    rw [hW j hj i hi, ← hval _ hlt, wireVal_gate hg hj]
  have hr := hrow i hi
  simp only [rowParts, List.mem_cons, forall_eq_or_imp, List.not_mem_nil, false_imp_iff, implies_true, and_true] at hr
  obtain ⟨r1, -, -, r4, r5, r6⟩ := hr
  refine ⟨?_, fun hb => ?_⟩
  · rw [← gateForm_holds]
    refine Eq.trans ?_ r1
    rw [piInterp_eval D _ _ i hi]
    unfold gateForm
    simp only [selPoly_eval D hg (show 0 < 13 by omega), selPoly_eval D hg (show 1 < 13 by omega), selPoly_eval D hg (show 2 < 13 by omega),
      selPoly_eval D hg (show 3 < 13 by omega), selPoly_eval D hg (show 4 < 13 by omega), selPoly_eval D hg (show 5 < 13 by omega),
      selPoly_eval D hg (show 6 < 13 by omega), selPoly_eval D hg (show 7 < 13 by omega), selPoly_eval D hg (show 8 < 13 by omega),
      selPoly_eval D hg (show 9 < 13 by omega), selPoly_eval D hg (show 10 < 13 by omega), selPoly_eval D hg (show 11 < 13 by omega),
      selPoly_eval D hg (show 12 < 13 by omega), hwg 0 (by omega), hwg 1 (by omega), hwg 2 (by omega), hwg 3 (by omega), hwg 4 (by omega)]
  · rw [boolPoly_eval D hi, if_pos hb, one_mul] at r4 r5 r6
    have hbit : ∀ x : F, x * (x - 1) = 0 → Spec.IsBit x := by
      intro x hx
      rcases mul_eq_zero.1 hx with h | h
      · exact Or.inl h
      · exact Or.inr (sub_eq_zero.1 h)
    rw [hwg 1 (by omega)] at r4
    rw [hwg 2 (by omega)] at r5
    rw [hwg 3 (by omega)] at r6
    exact ⟨hbit _ r4, hbit _ r5, hbit _ r6⟩

/-- if the assignment does not satisfy the system, then for all but few `β` and `γ`, whatever the accumulator, some part in some row does not
vanish -/
theorem rows_fail {rootM root : F} {κ : Nat → F} {cs : CS F} (hwf : WF cs) (D : Domain cs.gates.length rootM root κ)
    (hplace : ∀ a < 5 * cs.gates.length, ∀ b < 5 * cs.gates.length,
      place root κ cs.gates.length a = place root κ cs.gates.length b → a = b)
    (pi : List F) (w : Nat → F[X]) (hunsat : ¬ Plonk.Spec.Sat cs (readOff root cs w) pi) :
    ∃ B : Finset F, B.card ≤ 5 * cs.gates.length ∧ ∀ beta ∉ B, ∃ Γ : Finset F, Γ.card ≤ 5 * cs.gates.length ∧ ∀ gamma ∉ Γ,
      ∀ z : F[X], ∃ i < cs.gates.length, ∃ e ∈ rowParts root κ cs beta gamma w z
        (toPoly (piInterp root cs.gates.length cs.pubCons pi)) (root ^ i), e ≠ 0 := by
  have hn := D.pos
  let W : Nat → F := fun v => (w (v / cs.gates.length)).eval (root ^ (v % cs.gates.length))
  have hW : ∀ j < 5, ∀ i < cs.gates.length, (w j).eval (root ^ i) = W (j * cs.gates.length + i) := by
    intro j _ i hi
    simp only [W]
    rw [mul_comm j, Nat.mul_add_div hn, Nat.div_eq_of_lt hi, add_zero, Nat.mul_add_mod, Nat.mod_eq_of_lt hi]
  by_cases hinv : ∀ v < 5 * cs.gates.length, W (sigma cs v) = W v
  · refine ⟨∅, by simp, fun beta _ => ⟨∅, by simp, fun gamma _ z => ?_⟩⟩
    by_contra hc
    push Not at hc
    exact hunsat (rows_sat hwf D pi beta gamma w z hc W hW hinv)
  push Not at hinv
  obtain ⟨B, hB1, hB2⟩ := products_differ W (place root κ cs.gates.length) (sigma cs) (5 * cs.gates.length) (perm_eq hwf).2 hplace hinv
  refine ⟨B, hB1, fun beta hb => ?_⟩
  obtain ⟨Γ, hG1, hG2⟩ := hB2 beta hb
  refine ⟨Γ, hG1, fun gamma hg z => ?_⟩
  by_contra hc
  push Not at hc
  apply hG2 gamma hg
  have hc' : ∀ i < cs.gates.length, z.eval (root ^ i) * zNum root κ W cs.gates.length beta gamma i =
      z.eval (root ^ ((i + 1) % cs.gates.length)) * zDen root κ W (sigma cs) cs.gates.length beta gamma i := by
    intro i hi
    have hr := hc i hi
    simp only [rowParts, List.mem_cons, forall_eq_or_imp, List.not_mem_nil, false_imp_iff, implies_true, and_true] at hr
    have r2 := hr.2.1
    unfold permForm at r2
    have hnext : root * root ^ i = root ^ ((i + 1) % cs.gates.length) := by
      rw [← pow_succ']
      conv_lhs => rw [← Nat.mod_add_div (i + 1) cs.gates.length, pow_add, pow_mul, D.primN.pow_eq_one, one_pow, mul_one]
    rw [hnext, sub_eq_zero] at r2
    refine Eq.trans ?_ (r2.trans ?_)
    · congr 1
      exact Finset.prod_congr rfl fun j hj => by simp only; rw [hW j (Finset.mem_range.1 hj) i hi]
    · congr 1
      exact Finset.prod_congr rfl fun j hj => by simp only; rw [hW j (Finset.mem_range.1 hj) i hi, sigmaPoly_eval D hi]
  have h0 : z.eval (root ^ 0) = 1 := by
    have hr := hc 0 hn
    simp only [rowParts, List.mem_cons, forall_eq_or_imp, List.not_mem_nil, false_imp_iff, implies_true, and_true] at hr
    have r3 := hr.2.2.1
    rw [l1_eval D hn, if_pos rfl] at r3
    haveI : NeZero cs.gates.length := ⟨by omega⟩
    have hne : (cs.gates.length : F) ≠ 0 := (D.primN.neZero').out
    rcases mul_eq_zero.1 r3 with h | h
    · exact absurd h hne
    · exact sub_eq_zero.1 h
  have hprod := accum_products (fun k => z.eval (root ^ k)) _ _ cs.gates.length h0 hc'
  unfold zNum zDen at hprod
  rw [Finset.prod_comm, Finset.prod_comm (s := Finset.range cs.gates.length) (t := Finset.range 5)
    (f := fun i j => W (j * cs.gates.length + i) + gamma + beta * place root κ cs.gates.length (sigma cs (j * cs.gates.length + i)))] at hprod
  have e1 : ∏ j ∈ Finset.range 5, ∏ i ∈ Finset.range cs.gates.length, (W (j * cs.gates.length + i) + gamma + beta * (κ j * root ^ i)) =
      ∏ j ∈ Finset.range 5, ∏ i ∈ Finset.range cs.gates.length,
        (fun v => W v + gamma + beta * place root κ cs.gates.length v) (j * cs.gates.length + i) := by
    refine Finset.prod_congr rfl fun j _ => Finset.prod_congr rfl fun i hi => ?_
    simp only
    rw [place_block root κ _ j i (Finset.mem_range.1 hi)]
  rw [e1, prod_blocks (fun v => W v + gamma + beta * place root κ cs.gates.length v),
    prod_blocks (fun v => W v + gamma + beta * place root κ cs.gates.length (sigma cs v))] at hprod
  exact hprod

/-! ### Degrees -/

/-- the degree of the combined constraints, for columns of any degree -/
theorem numerPoly_natDegree_le {rootM root : F} {κ : Nat → F} {cs : CS F} (D : Domain cs.gates.length rootM root κ)
    (beta gamma alpha : F) (w : Nat → F[X]) (z pi : F[X]) (N : Nat) (hN : cs.gates.length ≤ N) (hw : ∀ j < 5, (w j).natDegree ≤ N)
    (hz : z.natDegree ≤ N) (hpi : pi.natDegree ≤ N) :
    (numerPoly root κ cs beta gamma alpha w z pi).natDegree ≤ 6 * N := by
  have hn := D.pos
  generalize hnn : cs.gates.length = n at *
  have hq : ∀ j, (selPoly root cs j).natDegree ≤ n - 1 := fun j => by rw [selPoly, hnn]; exact natDegree_interp' D _
  have hs : ∀ j, (sigmaPoly root κ cs j).natDegree ≤ n - 1 := fun j => by rw [sigmaPoly, hnn]; exact natDegree_interp' D _
  have hb : (boolPoly root cs).natDegree ≤ n - 1 := by rw [boolPoly, hnn]; exact natDegree_interp' D _
  have hl1 : (∑ i ∈ Finset.range n, X ^ i : F[X]).natDegree ≤ n - 1 := by
    refine natDegree_sum_le_of_forall_le _ _ fun i hi => ?_
    rw [natDegree_X_pow]
    have := Finset.mem_range.1 hi
    omega
  have hadd : ∀ {a b : F[X]} {d : Nat}, a.natDegree ≤ d → b.natDegree ≤ d → (a + b).natDegree ≤ d :=
    fun ha hb => natDegree_add_le_of_degree_le ha hb
  have hsub : ∀ {a b : F[X]} {d : Nat}, a.natDegree ≤ d → b.natDegree ≤ d → (a - b).natDegree ≤ d :=
    fun {a b d} ha hb => le_trans (natDegree_sub_le a b) (max_le ha hb)
  have hmul : ∀ {a b : F[X]} {d e f : Nat}, a.natDegree ≤ d → b.natDegree ≤ e → d + e ≤ f → (a * b).natDegree ≤ f :=
    fun ha hb h => le_trans (natDegree_mul_le_of_le ha hb) h
  have hpow : ∀ {a : F[X]} {d f : Nat} (k : Nat), a.natDegree ≤ d → k * d ≤ f → (a ^ k).natDegree ≤ f :=
    fun k ha h => le_trans (natDegree_pow_le_of_le k ha) h
  have hC : ∀ c : F, (C c).natDegree ≤ 0 := fun c => by rw [natDegree_C]
  have hone : (1 : F[X]).natDegree ≤ 0 := by rw [natDegree_one]
  have hzn : (z.comp (C root * X)).natDegree ≤ N := by
    refine le_trans natDegree_comp_le ?_
    have : (C root * X).natDegree ≤ 1 := hmul (hC root) natDegree_X_le (le_refl _)
    calc z.natDegree * (C root * X).natDegree ≤ N * 1 := Nat.mul_le_mul hz this
      _ = N := by omega
  have hprod : ∀ (f : Nat → F[X]), (∀ j < 5, (f j).natDegree ≤ N) → (∏ j ∈ Finset.range 5, f j).natDegree ≤ 5 * N := by
    intro f hf
    refine le_trans (natDegree_prod_le _ _) ?_
    refine le_trans (Finset.sum_le_sum (g := fun _ => N) fun j hj => hf j (Finset.mem_range.1 hj)) ?_
    simp
  have hw0 := hw 0 (by omega)
  have hw1 := hw 1 (by omega)
  have hw2 := hw 2 (by omega)
  have hw3 := hw 3 (by omega)
  have hw4 := hw 4 (by omega)
  have hbit : ∀ {a : F[X]}, a.natDegree ≤ N → (a * (a - 1)).natDegree ≤ 2 * N := fun ha =>
    hmul ha (hsub ha (le_trans hone (Nat.zero_le _))) (by omega)
  have hfac1 : ∀ j < 5, (w j + C gamma + C beta * (C (κ j) * X)).natDegree ≤ N := fun j hj =>
    hadd (hadd (hw j hj) (le_trans (hC _) (Nat.zero_le _))) (hmul (hC _) (hmul (hC _) natDegree_X_le (le_refl _)) (by omega))
  have hfac2 : ∀ j < 5, (w j + C gamma + C beta * sigmaPoly root κ cs j).natDegree ≤ N := fun j hj =>
    hadd (hadd (hw j hj) (le_trans (hC _) (Nat.zero_le _))) (hmul (hC _) (hs j) (by omega))
  have h01 := hmul hw0 hw1 (le_refl (N + N))
  have h23 := hmul hw2 hw3 (le_refl (N + N))
  have h0124 : (w 0 * w 1 * w 2 * w 3 * w 4).natDegree ≤ 5 * N := by
    have a := hmul h01 hw2 (le_refl _)
    have b := hmul a hw3 (le_refl _)
    exact hmul b hw4 (by omega)
  have h5 : ∀ {a : F[X]}, a.natDegree ≤ N → (a ^ 5).natDegree ≤ 5 * N := fun ha => hpow 5 ha (le_refl _)
  unfold numerPoly numer
  rw [hnn]
  refine hadd (hadd (hadd (hadd (hadd ?_ ?_) ?_) ?_) ?_) ?_
  · unfold gateForm
    refine hsub (hadd (hadd (hadd (hadd (hadd (hadd (hadd (hadd (hadd (hadd (hadd (hadd ?_ ?_) ?_) ?_) ?_) ?_) ?_) ?_) ?_) ?_) ?_) ?_) ?_) ?_
    · exact hmul (hq 0) hw0 (by omega)
    · exact hmul (hq 1) hw1 (by omega)
    · exact hmul (hq 2) hw2 (by omega)
    · exact hmul (hq 3) hw3 (by omega)
    · exact hmul (hq 4) h01 (by omega)
    · exact hmul (hq 5) h23 (by omega)
    · exact hmul (hq 6) hone (by omega)
    · exact le_trans hpi (by omega)
    · exact hmul (hq 7) h0124 (by omega)
    · exact hmul (hq 8) (h5 hw0) (by omega)
    · exact hmul (hq 9) (h5 hw1) (by omega)
    · exact hmul (hq 10) (h5 hw2) (by omega)
    · exact hmul (hq 11) (h5 hw3) (by omega)
    · exact hmul (hq 12) hw4 (by omega)
  · unfold permForm
    refine hmul (hC _) (hsub (hmul hz (hprod _ hfac1) (le_refl _)) (hmul hzn (hprod _ hfac2) (le_refl _))) (by omega)
  · exact hmul (hpow 2 (hC _) (le_refl _)) (hmul hl1 (hsub hz (le_trans hone (Nat.zero_le _))) (le_refl _)) (by omega)
  · exact hmul (hpow 3 (hC _) (le_refl _)) (hmul hb (hbit hw1) (le_refl _)) (by omega)
  · exact hmul (hpow 4 (hC _) (le_refl _)) (hmul hb (hbit hw2) (le_refl _)) (by omega)
  · exact hmul (hpow 5 (hC _) (le_refl _)) (hmul hb (hbit hw3) (le_refl _)) (by omega)

/-- the quotient that the parts stand for -/
noncomputable def glue (m : Nat) : List F[X] → F[X]
  | [] => 0
  | t :: ts => t + X ^ m * glue m ts

omit [DecidableEq F] in
theorem glue_eval (m : Nat) (x : F) (ts : List F[X]) : (glue m ts).eval x = combine (x ^ m) (ts.map fun t => t.eval x) := by
  induction ts with
  | nil => simp [glue, combine]
  | cons t ts ih => simp [glue, combine, ih]

omit [DecidableEq F] in
theorem glue_natDegree (m N : Nat) (ts : List F[X]) (h : ∀ t ∈ ts, t.natDegree ≤ N) : (glue m ts).natDegree ≤ N + ts.length * m := by
  induction ts with
  | nil => simp [glue]
  | cons t ts ih =>
    rw [glue]
    refine natDegree_add_le_of_degree_le (le_trans (h t (by simp)) (by omega)) ?_
    refine le_trans natDegree_mul_le ?_
    have := ih fun t ht => h t (by simp [ht])
    rw [natDegree_X_pow, List.length_cons, Nat.succ_mul]
    omega

/-- few `ζ` hide a constraint that does not hold -/
theorem zeta_fail {rootM root : F} {κ : Nat → F} {cs : CS F} (D : Domain cs.gates.length rootM root κ) (p T : F[X])
    (i : Nat) (hi : i < cs.gates.length) (hp : p.eval (root ^ i) ≠ 0) (N : Nat) (h1 : p.natDegree ≤ N)
    (h2 : cs.gates.length + T.natDegree ≤ N) :
    ∃ Z : Finset F, Z.card ≤ N ∧ ∀ zeta ∉ Z, p.eval zeta ≠ (zeta ^ cs.gates.length - 1) * T.eval zeta := by
  have hne : p - (X ^ cs.gates.length - 1) * T ≠ 0 := by
    intro h
    have := congrArg (fun f => eval (root ^ i) f) h
    simp only [eval_sub, eval_mul, eval_pow, eval_X, eval_one, eval_zero, D.root_pow, sub_self, zero_mul, sub_zero] at this
    exact hp this
  refine ⟨(p - (X ^ cs.gates.length - 1) * T).roots.toFinset, ?_, fun zeta hz h => hz ?_⟩
  · refine le_trans (Multiset.toFinset_card_le _) (le_trans (card_roots' _) (le_trans (natDegree_sub_le _ _) (max_le h1 ?_)))
    refine le_trans natDegree_mul_le ?_
    rw [show (X ^ cs.gates.length - 1 : F[X]).natDegree = cs.gates.length from natDegree_X_pow_sub_C (n := cs.gates.length) (r := (1 : F))]
    exact h2
  · rw [Multiset.mem_toFinset, mem_roots hne, IsRoot]
    simp only [eval_sub, eval_mul, eval_pow, eval_X, eval_one, sub_eq_zero]
    exact h

/-! ### The verifier -/

/-- the linearisation polynomial for claimed values `wv`, `σv`, `zv` -/
noncomputable def linPoly (root : F) (κ : Nat → F) (cs : CS F) (wv σv : Nat → F) (zv : F) (ch : Challenges F) (z : F[X])
    (ts : List F[X]) : F[X] :=
  rForm ((List.range 5).map wv) ((List.range 5).map κ) ((List.range 4).map σv) zv ch
    (∑ i ∈ Finset.range cs.gates.length, ch.zeta ^ i) (ch.zeta ^ cs.gates.length - 1) (cs.gates.length + 2) (multOf wv)
    ((List.range 13).map (selPoly root cs)) (boolPoly root cs) (sigmaPoly root κ cs 4) z ts

theorem linPoly_commit (s : F) (g : G1) (rootM root : F) (κ : Nat → F) (cs : CS F) (wv σv : Nat → F) (zv : F) (ch : Challenges F)
    (z : F[X]) (ts : List F[X]) :
    cmRForm (pkOf s g rootM root κ cs).vk ((toPoly (interp root cs.gates.length (sigmaColumn cs root κ 4))).eval s • g) wv
        ((List.range 4).map σv) zv ch (z.eval s • g) (ts.map fun t => t.eval s • g) =
      (linPoly root κ cs wv σv zv ch z ts).eval s • g := by
  have h := rForm_map (commitMap s g) ((List.range 5).map wv) ((List.range 5).map κ) ((List.range 4).map σv) zv ch
    (∑ i ∈ Finset.range cs.gates.length, ch.zeta ^ i) (ch.zeta ^ cs.gates.length - 1) (cs.gates.length + 2) (multOf wv)
    ((List.range 13).map (selPoly root cs)) (boolPoly root cs) (sigmaPoly root κ cs 4) z ts
  rw [commitMap_apply, commitMap_apply, commitMap_apply] at h
  refine Eq.trans ?_ h.symm
  unfold cmRForm
  congr 1

/-- opened at `ζ` with the right values, the linearisation has the expected value exactly when the constraints are a multiple of the
vanishing polynomial there -/
theorem linPoly_eval (root : F) (κ : Nat → F) (cs : CS F) (w : Nat → F[X]) (ch : Challenges F) (z pi : F[X]) (ts : List F[X]) :
    (linPoly root κ cs (fun j => (w j).eval ch.zeta) (fun j => (sigmaPoly root κ cs j).eval ch.zeta) (z.eval (root * ch.zeta)) ch z
        ts).eval ch.zeta =
      rEvalForm (fun j => (w j).eval ch.zeta) (fun j => (sigmaPoly root κ cs j).eval ch.zeta) (z.eval (root * ch.zeta)) ch
        (pi.eval ch.zeta) (∑ i ∈ Finset.range cs.gates.length, ch.zeta ^ i)
      + ((numerPoly root κ cs ch.beta ch.gamma ch.alpha w z pi).eval ch.zeta
        - (ch.zeta ^ cs.gates.length - 1) * (glue (cs.gates.length + 2) ts).eval ch.zeta) := by
  have hmap := rForm_map (Polynomial.leval ch.zeta) ((List.range 5).map fun j => (w j).eval ch.zeta) ((List.range 5).map κ)
    ((List.range 4).map fun j => (sigmaPoly root κ cs j).eval ch.zeta) (z.eval (root * ch.zeta)) ch
    (∑ i ∈ Finset.range cs.gates.length, ch.zeta ^ i)
    (ch.zeta ^ cs.gates.length - 1) (cs.gates.length + 2) (multOf fun j => (w j).eval ch.zeta) ((List.range 13).map (selPoly root cs))
    (boolPoly root cs) (sigmaPoly root κ cs 4) z ts
  have hkey := rForm_numer (fun j => (w j).eval ch.zeta) κ (fun j => (sigmaPoly root κ cs j).eval ch.zeta)
    (fun j => (selPoly root cs j).eval ch.zeta) (z.eval (root * ch.zeta)) ch (∑ i ∈ Finset.range cs.gates.length, ch.zeta ^ i)
    (ch.zeta ^ cs.gates.length - 1) (cs.gates.length + 2) ((boolPoly root cs).eval ch.zeta) (z.eval ch.zeta) (pi.eval ch.zeta)
    (ts.map fun t => t.eval ch.zeta)
  rw [← numerPoly_eval, ← glue_eval, add_sub_assoc] at hkey
  refine Eq.trans ?_ hkey
  rw [List.map_map] at hmap
  exact hmap

/-- commitments of a list of polynomials -/
theorem batch_commit (s v : F) (g : G1) (ps : List F[X]) (vs : List F) (h : vs.length = ps.length) :
    batchLoop v vs (ps.map fun p => p.eval s • g) 1 (0, 0) = ((combine v ps).eval s • g, combine v vs) := by
  rw [batchLoop_eq v vs _ 1 (0, 0) (by simpa using h)]
  have := combine_map v (commitMap s g) ps
  rw [commitMap_apply] at this
  rw [this]
  simp only [zero_add, one_smul, one_mul]
  rfl

/-- C70, the part that holds.  Take a prover that commits to polynomials of degree at most `N` whose coefficients do not depend on
the secret of the commitment key.  If the assignment that the committed wires hold does not satisfy the system, the verifier rejects, except for at most `5n` values of `β`,
`5n` of `γ`, five of `α`, `6N + k(n+2)` of `ζ` for `k` parts of the quotient, nine of the batching challenge, one of `u`, and `N + 1`
values of the secret.  Each exceptional set depends on what is sent before the challenge only.  Missing for the claim: the verifier
draws `u` before the opening proofs `q₁`, `q₂` are fixed, accepts more than four values of permutation polynomials and panics on
fewer; `C70_forged_shaped` and `C70_forged_long` are accepted for every system. -/
theorem C70_extracts_late_u_partial (P : Pairing F G1 G2 Gt) (hP : NonDegenerate P) {rootM root : F} {κ : Nat → F} {cs : CS F}
    (hwf : WF cs) (D : Domain cs.gates.length rootM root κ)
    (hplace : ∀ a < 5 * cs.gates.length, ∀ b < 5 * cs.gates.length,
      place root κ cs.gates.length a = place root κ cs.gates.length b → a = b)
    (pi : List F) (N : Nat) (hN : cs.gates.length ≤ N)
    (w : Nat → F[X]) (hw : ∀ j < 5, (w j).natDegree ≤ N) (hunsat : ¬ Plonk.Spec.Sat cs (readOff root cs w) pi) :
    ∃ B : Finset F, B.card ≤ 5 * cs.gates.length ∧ ∀ beta ∉ B,
    ∃ Γ : Finset F, Γ.card ≤ 5 * cs.gates.length ∧ ∀ gamma ∉ Γ, ∀ z : F[X], z.natDegree ≤ N →
    ∃ A : Finset F, A.card ≤ 5 ∧ ∀ alpha ∉ A, ∀ ts : List F[X], ts ≠ [] → (∀ t ∈ ts, t.natDegree ≤ N) →
    ∃ Z : Finset F, Z.card ≤ 6 * N + ts.length * (cs.gates.length + 2) ∧ ∀ zeta ∉ Z, zeta ^ cs.gates.length ≠ 1 →
      ∀ (wv σv : Nat → F) (zv : F),
    ∃ V : Finset F, V.card ≤ 9 ∧ ∀ v ∉ V, ∀ q1 q2 : F[X], q1.natDegree ≤ N → q2.natDegree ≤ N →
    ∃ U : Finset F, U.card ≤ 1 ∧ ∀ u ∉ U,
    ∃ S : Finset F, S.card ≤ N + 1 ∧ ∀ s ∉ S, ∀ (d : Nat) (tr : Tr F G1),
      verifierWith (fun _ _ => v) P (setup P d s) (pkOf s P.base1 rootM root κ cs).vk pi
        (Proof.mk ((List.range 5).map fun j => (w j).eval s • P.base1) (ts.map fun t => t.eval s • P.base1) (z.eval s • P.base1)
          ((List.range 5).map wv) zv ((List.range 4).map σv) (q1.eval s • P.base1) (q2.eval s • P.base1))
        ⟨beta, gamma, alpha, zeta, u⟩ tr ≠ .ok () := by
  obtain ⟨B, hB, hB'⟩ := rows_fail hwf D hplace pi w hunsat
  refine ⟨B, hB, fun beta hb => ?_⟩
  obtain ⟨Γ, hG, hG'⟩ := hB' beta hb
  refine ⟨Γ, hG, fun gamma hg z hz => ?_⟩
  obtain ⟨i, hi, hrow⟩ := hG' gamma hg z
  set pip := toPoly (piInterp root cs.gates.length cs.pubCons pi) with hpip
  obtain ⟨A, hA, hA'⟩ := combine_few (F := F) _ hrow
  refine ⟨A, hA, fun alpha ha ts hts htd => ?_⟩
  have hnum : (numerPoly root κ cs beta gamma alpha w z pip).eval (root ^ i) ≠ 0 := by
    rw [numer_rowParts]
    exact fun h => ha (hA' _ h)
  have hn := D.pos
  have hpid : pip.natDegree ≤ N := le_trans (natDegree_interp' D _) (by omega)
  have hglue := glue_natDegree (cs.gates.length + 2) N ts htd
  obtain ⟨Z, hZ, hZ'⟩ := zeta_fail D _ (glue (cs.gates.length + 2) ts) i hi hnum (6 * N + ts.length * (cs.gates.length + 2))
    (le_trans (numerPoly_natDegree_le D beta gamma alpha w z pip N hN hw hz hpid) (by omega)) (by omega)
  refine ⟨Z, hZ, fun zeta hzt hz1 wv σv zv => ?_⟩
  have hfail := hZ' zeta hzt
  -- the polynomials that are opened at ζ and the claimed values; nothing depends on `u`
  set ch0 : Challenges F := ⟨beta, gamma, alpha, zeta, 0⟩ with hch0
  set lin := linPoly root κ cs wv σv zv ch0 z ts with hlin
  set rv := rEvalForm wv σv zv ch0 (pip.eval zeta) (∑ i ∈ Finset.range cs.gates.length, zeta ^ i) with hrv
  set ps : List F[X] := (List.range 5).map w ++ (List.range 4).map (sigmaPoly root κ cs) ++ [lin] with hps
  set vs : List F := (List.range 5).map wv ++ (List.range 4).map σv ++ [rv] with hvs
  have hlen : vs.length = ps.length := by simp [vs, ps]
  set errs := List.zipWith (fun x y => x - y) (ps.map fun p => p.eval zeta) vs with herrs
  have hlind : lin.natDegree ≤ N := by
    refine rForm_natDegree _ _ _ _ _ _ _ _ _ _ _ _ _ _ N ?_ (le_trans (natDegree_interp' D _) (by omega))
      (le_trans (natDegree_interp' D _) (by omega)) hz htd
    intro q hq
    obtain ⟨j, -, rfl⟩ := List.mem_map.1 hq
    exact le_trans (natDegree_interp' D _) (by omega)
  have hpsd : ∀ p ∈ ps, p.natDegree ≤ N := by
    intro p hp
    rw [hps, List.append_assoc, List.mem_append, List.mem_append, List.mem_singleton, List.mem_map, List.mem_map] at hp
    rcases hp with ⟨j, hj, rfl⟩ | ⟨j, -, rfl⟩ | rfl
    · exact hw j (List.mem_range.1 hj)
    · exact le_trans (natDegree_interp' D _) (by omega)
    · exact hlind
  -- some claimed value is wrong
  have hwrong : (∃ e ∈ errs, e ≠ 0) ∨ z.eval (zeta * root) ≠ zv := by
    by_contra hc
    push Not at hc
    obtain ⟨hc1, hc2⟩ := hc
    have he : ∀ (k : Nat) (p : F[X]) (x : F), ps[k]? = some p → vs[k]? = some x → p.eval zeta = x := by
      intro k p x hk1 hk2
      have : errs[k]? = some (p.eval zeta - x) := by
        rw [herrs, List.getElem?_zipWith, List.getElem?_map, hk1, hk2]; rfl
      exact sub_eq_zero.1 (hc1 _ (List.mem_of_getElem? this))
    have hσv : ∀ j < 4, (sigmaPoly root κ cs j).eval zeta = σv j := by
      intro j hj
      refine he (5 + j) _ _ ?_ ?_ <;> interval_cases j <;> simp [ps, vs, List.range_succ]
    have hwv' : ∀ j < 5, (w j).eval zeta = wv j := by
      intro j hj
      refine he j _ _ ?_ ?_ <;> interval_cases j <;> simp [ps, vs, List.range_succ]
    have hl : lin.eval zeta = rv := by
      refine he 9 _ _ ?_ ?_ <;> simp [ps, vs, List.range_succ]
    have hm5 : ∀ f g : Nat → F, (∀ j < 5, f j = g j) → (List.range 5).map f = (List.range 5).map g := fun f g h =>
      List.map_congr_left fun j hj => h j (List.mem_range.1 hj)
    have hlin' : lin = linPoly root κ cs (fun j => (w j).eval zeta) (fun j => (sigmaPoly root κ cs j).eval zeta)
        (z.eval (root * zeta)) ch0 z ts := by
      rw [hlin, linPoly, linPoly, hm5 wv _ fun j hj => (hwv' j hj).symm, ← hc2, mul_comm zeta]
      congr 1
      · exact List.map_congr_left fun j hj => (hσv j (List.mem_range.1 hj)).symm
      · simp only [multOf, ← hwv' 0 (by omega), ← hwv' 1 (by omega), ← hwv' 2 (by omega), ← hwv' 3 (by omega), ← hwv' 4 (by omega)]
    have hrv' : rv = rEvalForm (fun j => (w j).eval zeta) (fun j => (sigmaPoly root κ cs j).eval zeta) (z.eval (root * zeta)) ch0
        (pip.eval zeta) (∑ i ∈ Finset.range cs.gates.length, zeta ^ i) := by
      rw [hrv, rEvalForm, rEvalForm, ← hc2, mul_comm zeta]
      simp only [← hwv' 0 (by omega), ← hwv' 1 (by omega), ← hwv' 2 (by omega), ← hwv' 3 (by omega), ← hwv' 4 (by omega),
        ← hσv 0 (by omega), ← hσv 1 (by omega), ← hσv 2 (by omega), ← hσv 3 (by omega)]
    have hkey := linPoly_eval root κ cs w ch0 z pip ts
    rw [← hlin', hl, hrv'] at hkey
    apply hfail
    have : (numerPoly root κ cs beta gamma alpha w z pip).eval zeta
        - (zeta ^ cs.gates.length - 1) * (glue (cs.gates.length + 2) ts).eval zeta = 0 := by
      have := (add_eq_left (a := rEvalForm (fun j => (w j).eval zeta) (fun j => (sigmaPoly root κ cs j).eval zeta) (z.eval (root * zeta)) ch0
        (pip.eval zeta) (∑ i ∈ Finset.range cs.gates.length, zeta ^ i))).1 hkey.symm
      exact this
    exact sub_eq_zero.1 this
  -- the batching challenge
  obtain ⟨V, hV, hV'⟩ : ∃ V : Finset F, V.card ≤ 9 ∧ ∀ v ∉ V, combine v errs ≠ 0 ∨ z.eval (zeta * root) ≠ zv := by
    rcases hwrong with h | h
    · obtain ⟨V, h1, h2⟩ := combine_few (F := F) errs h
      refine ⟨V, le_trans h1 (by simp [errs, ps, vs]), fun v hv => Or.inl fun h0 => hv (h2 v h0)⟩
    · exact ⟨∅, by simp, fun v _ => Or.inr h⟩
  refine ⟨V, hV, fun v hv q1 q2 hq1 hq2 => ?_⟩
  set E1 := combine v ps - C (combine v vs) - (X - C zeta) * q1 with hE1
  set E2 := z - C zv - (X - C (zeta * root)) * q2 with hE2
  have hE : ∃ e ∈ [E1, E2], e ≠ 0 := by
    rcases hV' v hv with h | h
    · refine ⟨E1, by simp, fun h0 => h ?_⟩
      have := congrArg (fun f => eval zeta f) h0
      simp only [hE1, eval_sub, eval_mul, eval_X, eval_C, sub_self, zero_mul, sub_zero, eval_zero] at this
      rw [herrs, combine_sub _ _ _ (by rw [List.length_map]; exact hlen.symm), ← combine_eval]
      exact this
    · refine ⟨E2, by simp, fun h0 => h ?_⟩
      have := congrArg (fun f => eval (zeta * root) f) h0
      simp only [hE2, eval_sub, eval_mul, eval_X, eval_C, sub_self, zero_mul, sub_zero, eval_zero] at this
      exact sub_eq_zero.1 this
  obtain ⟨U, hU, hU'⟩ := combine_few (F := F) _ hE
  refine ⟨U, hU, fun u hu => ?_⟩
  have hne : combine u [E1, E2] ≠ 0 := fun h => hu (hU' u h)
  have hlind' : ∀ c : F, (X - C c : F[X]).natDegree ≤ 1 := fun c => by rw [natDegree_X_sub_C]
  have hED : (combine u [E1, E2]).natDegree ≤ N + 1 := by
    refine combine_natDegree _ _ _ ?_
    intro p hp
    rw [List.mem_cons, List.mem_singleton] at hp
    rcases hp with rfl | rfl
    · refine le_trans (natDegree_sub_le _ _) (max_le (le_trans (natDegree_sub_le _ _) (max_le ?_ (by simp))) ?_)
      · exact le_trans (combine_natDegree _ _ N hpsd) (by omega)
      · exact le_trans (natDegree_mul_le_of_le (hlind' _) hq1) (by omega)
    · refine le_trans (natDegree_sub_le _ _) (max_le (le_trans (natDegree_sub_le _ _) (max_le (by omega) (by simp))) ?_)
      exact le_trans (natDegree_mul_le_of_le (hlind' _) hq2) (by omega)
  refine ⟨(combine u [E1, E2]).roots.toFinset, le_trans (Multiset.toFinset_card_le _) (le_trans (card_roots' _) hED),
    fun s hs d tr hacc => hs ?_⟩
  rw [Multiset.mem_toFinset, mem_roots hne, IsRoot]
  have hv0 := verifierWith_eq (fun _ _ => v) P (setup P d s) s P.base1 rootM root κ cs hwf D pi
    (Proof.mk ((List.range 5).map fun j => (w j).eval s • P.base1) (ts.map fun t => t.eval s • P.base1) (z.eval s • P.base1)
      ((List.range 5).map wv) zv ((List.range 4).map σv) (q1.eval s • P.base1) (q2.eval s • P.base1)) wv σv [] rfl (by simp)
    (by simpa using hts) ⟨beta, gamma, alpha, zeta, u⟩ hz1 tr
  rw [hv0] at hacc
  simp only [List.append_nil] at hacc
  rw [linPoly_commit] at hacc
  have hcms : (List.range 5).map (fun j => (w j).eval s • P.base1) ++ (pkOf s P.base1 rootM root κ cs).vk.cmS.take 4 ++
      [(linPoly root κ cs wv σv zv ⟨beta, gamma, alpha, zeta, u⟩ z ts).eval s • P.base1] = ps.map fun p => p.eval s • P.base1 := by
    have hcS : (pkOf s P.base1 rootM root κ cs).vk.cmS.take 4 = ((List.range 4).map (sigmaPoly root κ cs)).map
        fun p => p.eval s • P.base1 := by
      simp [pkOf, List.range_succ, sigmaPoly]
    rw [hcS, hps, List.map_append, List.map_append, List.map_map]
    rfl
  rw [hcms] at hacc
  have hb2 := batch_commit s v P.base1 ps vs hlen
  have hb3 : batchLoop v ((List.range 5).map wv ++ (List.range 4).map σv ++ [rEvalForm wv σv zv ⟨beta, gamma, alpha, zeta, u⟩
      (pip.eval zeta) (∑ i ∈ Finset.range cs.gates.length, zeta ^ i)]) (ps.map fun p => p.eval s • P.base1) 1 (0, 0) =
      ((combine v ps).eval s • P.base1, combine v vs) := hb2
  rw [hb3, batchVerifyDiffPoints_iff P d s u _ _ _ _ (by simp) (by simp) (by simp) (by simp)] at hacc
  have h0 := hP.separates _ hacc
  have h1 : combine u (openError P s [(combine v ps).eval s • P.base1, z.eval s • P.base1] [zeta, zeta * root] [combine v vs, zv]
      [q1.eval s • P.base1, q2.eval s • P.base1]) = (combine u [E1, E2]).eval s • P.base1 := by
    simp only [openError, combine, hE1, hE2, eval_add, eval_sub, eval_mul, eval_smul, eval_X, eval_C, eval_zero, smul_eq_mul]
    module
  rw [h1] at h0
  rcases smul_eq_zero.1 h0 with h | h
  · exact h
  · exact absurd h hP.base

/-- C70: in particular, if no assignment satisfies the system. -/
theorem C70_sound_late_u_partial (P : Pairing F G1 G2 Gt) (hP : NonDegenerate P) {rootM root : F} {κ : Nat → F} {cs : CS F}
    (hwf : WF cs) (D : Domain cs.gates.length rootM root κ)
    (hplace : ∀ a < 5 * cs.gates.length, ∀ b < 5 * cs.gates.length,
      place root κ cs.gates.length a = place root κ cs.gates.length b → a = b)
    (pi : List F) (hunsat : ∀ a, ¬ Plonk.Spec.Sat cs a pi) (N : Nat) (hN : cs.gates.length ≤ N)
    (w : Nat → F[X]) (hw : ∀ j < 5, (w j).natDegree ≤ N) :
    ∃ B : Finset F, B.card ≤ 5 * cs.gates.length ∧ ∀ beta ∉ B,
    ∃ Γ : Finset F, Γ.card ≤ 5 * cs.gates.length ∧ ∀ gamma ∉ Γ, ∀ z : F[X], z.natDegree ≤ N →
    ∃ A : Finset F, A.card ≤ 5 ∧ ∀ alpha ∉ A, ∀ ts : List F[X], ts ≠ [] → (∀ t ∈ ts, t.natDegree ≤ N) →
    ∃ Z : Finset F, Z.card ≤ 6 * N + ts.length * (cs.gates.length + 2) ∧ ∀ zeta ∉ Z, zeta ^ cs.gates.length ≠ 1 →
      ∀ (wv σv : Nat → F) (zv : F),
    ∃ V : Finset F, V.card ≤ 9 ∧ ∀ v ∉ V, ∀ q1 q2 : F[X], q1.natDegree ≤ N → q2.natDegree ≤ N →
    ∃ U : Finset F, U.card ≤ 1 ∧ ∀ u ∉ U,
    ∃ S : Finset F, S.card ≤ N + 1 ∧ ∀ s ∉ S, ∀ (d : Nat) (tr : Tr F G1),
      verifierWith (fun _ _ => v) P (setup P d s) (pkOf s P.base1 rootM root κ cs).vk pi
        (Proof.mk ((List.range 5).map fun j => (w j).eval s • P.base1) (ts.map fun t => t.eval s • P.base1) (z.eval s • P.base1)
          ((List.range 5).map wv) zv ((List.range 4).map σv) (q1.eval s • P.base1) (q2.eval s • P.base1))
        ⟨beta, gamma, alpha, zeta, u⟩ tr ≠ .ok () :=
  C70_extracts_late_u_partial P hP hwf D hplace pi N hN w hw (hunsat _)

/-! ### The representatives of the cosets -/

/-- the loop only appends distinct non-residues -/
theorem chooseKs_spec (isResidue : F → Bool) : ∀ (draws : List F) (more : Nat) (k r : List F), chooseKs isResidue more k draws = some r →
    k.Nodup → ∃ l, r = k ++ l ∧ l.length = more ∧ r.Nodup ∧ ∀ x ∈ l, x ≠ 0 ∧ isResidue x = false ∧ x ∈ draws := by
  intro draws
  induction draws with
  | nil =>
    intro more k r h hk
    cases more with
    | zero =>
      simp only [chooseKs, Option.some.injEq] at h
      subst h
      exact ⟨[], by simp, rfl, hk, by simp⟩
    | succ more => simp [chooseKs] at h
  | cons x draws ih =>
    intro more k r h hk
    cases more with
    | zero =>
      simp only [chooseKs, Option.some.injEq] at h
      subst h
      exact ⟨[], by simp, rfl, hk, by simp⟩
    | succ more =>
      rw [chooseKs] at h
      by_cases h0 : x = 0
      · rw [if_pos h0] at h
        obtain ⟨l, h1, h2, h3, h4⟩ := ih _ _ _ h hk
        exact ⟨l, h1, h2, h3, fun y hy => ⟨(h4 y hy).1, (h4 y hy).2.1, by simp [(h4 y hy).2.2]⟩⟩
      · rw [if_neg h0] at h
        by_cases hc : (k.all (fun y => decide (y ≠ x)) && !isResidue x) = true
        · rw [if_pos hc] at h
          rw [Bool.and_eq_true, List.all_eq_true, Bool.not_eq_true'] at hc
          have hx : x ∉ k := fun hx => by simpa using hc.1 x hx
          obtain ⟨l, h1, h2, h3, h4⟩ := ih _ _ _ h (by
            rw [List.nodup_append]
            refine ⟨hk, by simp, ?_⟩
            intro a ha b hb
            rw [List.mem_singleton] at hb
            rintro rfl
            exact hx (hb ▸ ha))
          refine ⟨x :: l, by rw [h1]; simp, by simp [h2], h3, fun y hy => ?_⟩
          rcases List.mem_cons.1 hy with rfl | hy
          · exact ⟨h0, hc.2, by simp⟩
          · exact ⟨(h4 y hy).1, (h4 y hy).2.1, by simp [(h4 y hy).2.2]⟩
        · rw [if_neg hc] at h
          obtain ⟨l, h1, h2, h3, h4⟩ := ih _ _ _ h hk
          exact ⟨l, h1, h2, h3, fun y hy => ⟨(h4 y hy).1, (h4 y hy).2.1, by simp [(h4 y hy).2.2]⟩⟩

/-- C60: the representatives are one and four distinct, non-zero elements that are no squares.  None of the four lies in a group of
roots of unity whose order divides `(q - 1) / 2`, as the orders that the indexer uses do. -/
theorem C60_choose_ks (e : Nat) (draws k : List F) (h : chooseKs (fun x => decide (x ^ e = 1)) 4 [1] draws = some k) :
    k.length = 5 ∧ k[0]? = some 1 ∧ k.Nodup ∧ ∀ i x, k[i + 1]? = some x → x ≠ 0 ∧ x ^ e ≠ 1 ∧ ∀ m, m ∣ e → x ^ m ≠ 1 := by
  obtain ⟨l, rfl, h2, h3, h4⟩ := chooseKs_spec _ draws 4 [1] k h (by simp)
  refine ⟨by simp [h2], by simp, h3, fun i x hx => ?_⟩
  have hm : x ∈ l := List.mem_of_getElem? (i := i) (by simpa using hx)
  obtain ⟨h5, h6, -⟩ := h4 x hm
  have h7 : x ^ e ≠ 1 := by simpa using h6
  refine ⟨h5, h7, fun m hme h8 => h7 ?_⟩
  obtain ⟨c, rfl⟩ := hme
  rw [pow_mul, h8, one_pow]

example : chooseKs (fun x : ZMod 97 => decide (x ^ 48 = 1)) 4 [1] [0, 5, 4, 5, 28, 21, 40] = some [1, 5, 28, 21, 40] := by decide +kernel

/-- C60: but two of the representatives may lie in the same coset of the domain, and then positions of different wires share their
place and the permutation argument does not bind them.  With 97 elements and two gates, the draws 5 and -5 are both taken. -/
theorem C60_choose_ks_cosets_may_meet : ∃ (draws k : List (ZMod 97)),
    chooseKs (fun x => decide (x ^ 48 = 1)) 4 [1] draws = some k ∧
      place (28 ^ 16) (fun i => k[i]?.getD 0) 2 2 = place (28 ^ 16) (fun i => k[i]?.getD 0) 2 5 :=
  ⟨[5, -5, 21, 40], [1, 5, -5, 21, 40], by decide +kernel, by decide +kernel⟩

/-- the unsatisfiable system over the field of order 97, polynomials of degree at most 4 and a quotient in five parts: outside of 10,
10, 5, 44, 9 and 1 values of the challenges and 5 secrets the verifier rejects -/
example (pi : List (ZMod 97)) (w : Nat → (ZMod 97)[X]) (hw : ∀ j < 5, (w j).natDegree ≤ 4) :
    ∃ B : Finset (ZMod 97), B.card ≤ 10 ∧ ∀ beta ∉ B, ∃ Γ : Finset (ZMod 97), Γ.card ≤ 10 ∧ ∀ gamma ∉ Γ,
      ∀ z : (ZMod 97)[X], z.natDegree ≤ 4 → ∃ A : Finset (ZMod 97), A.card ≤ 5 ∧ ∀ alpha ∉ A, ∀ ts : List (ZMod 97)[X], ts.length = 5 →
        (∀ t ∈ ts, t.natDegree ≤ 4) → ∃ Z : Finset (ZMod 97), Z.card ≤ 44 := by
  obtain ⟨B, hB, h⟩ := C70_sound_late_u_partial pairing97 pairing97_nonDegenerate unsat97_wf domain97
    (show ∀ a < 10, ∀ b < 10, place (28 ^ 16) κ97 2 a = place (28 ^ 16) κ97 2 b → a = b by decide +kernel) pi
    (fun a => unsat97_unsat a pi) 4 (by decide) w hw
  refine ⟨B, hB, fun beta hb => ?_⟩
  obtain ⟨Γ, hG, h⟩ := h beta hb
  refine ⟨Γ, hG, fun gamma hg z hz => ?_⟩
  obtain ⟨A, hA, h⟩ := h gamma hg z hz
  refine ⟨A, hA, fun alpha ha ts hl ht => ?_⟩
  obtain ⟨Z, hZ, -⟩ := h alpha ha ts (by rintro rfl; simp at hl) ht
  exact ⟨Z, by rw [hl] at hZ; exact hZ⟩

/-- the system of the square has a satisfying assignment for the public value 5, but wires that are zero everywhere do not hold one;
a prover that commits to them is rejected outside of the exceptional sets -/
example : (∃ a, Plonk.Spec.Sat square97 a [5]) ∧
    ∃ B : Finset (ZMod 97), B.card ≤ 10 ∧ ∀ beta ∉ B, ∃ Γ : Finset (ZMod 97), Γ.card ≤ 10 ∧ ∀ gamma ∉ Γ,
      ∀ z : (ZMod 97)[X], z.natDegree ≤ 4 → ∃ A : Finset (ZMod 97), A.card ≤ 5 := by
  have hz : readOff (28 ^ 16) square97 (fun _ => (0 : (ZMod 97)[X])) = fun _ => 0 := by
    funext v
    simp [readOff]
  refine ⟨⟨_, square97_sat⟩, ?_⟩
  obtain ⟨B, hB, h⟩ := C70_extracts_late_u_partial pairing97 pairing97_nonDegenerate square97_wf domain97
    (show ∀ a < 10, ∀ b < 10, place (28 ^ 16) κ97 2 a = place (28 ^ 16) κ97 2 b → a = b by decide +kernel) [5] 4 (by decide)
    (fun _ => 0) (by simp) (by
      rw [hz]
      intro hs
      have h0 := (hs 0 (constGate 2 0) rfl).1
      simp [Plonk.Spec.Gate.Holds, constGate, Plonk.Spec.piAt, square97] at h0
      exact absurd h0 (by decide))
  refine ⟨B, hB, fun beta hb => ?_⟩
  obtain ⟨Γ, hG, h⟩ := h beta hb
  refine ⟨Γ, hG, fun gamma hg z hz => ?_⟩
  obtain ⟨A, hA, -⟩ := h gamma hg z hz
  exact ⟨A, hA⟩

end Verif.Snark
