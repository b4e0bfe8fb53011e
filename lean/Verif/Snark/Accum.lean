import Verif.Snark.Numer

/-!
The wire values of a witness, the permutation accumulator over a whole domain, and the combined constraints of a satisfying witness.
-/

namespace Verif.Snark

open Verif.Poly Verif.Plonk Polynomial
open Verif.AnonCreds (Pairing)

variable {F G1 G2 Gt : Type} [Field F] [DecidableEq F] [AddCommGroup G1] [Module F G1] [AddCommGroup G2] [Module F G2]
  [AddCommGroup Gt] [Module F Gt] [DecidableEq Gt]

/-! ### Products over positions -/

omit [DecidableEq F] in
theorem prod_blocks (f : Nat → F) (n k : Nat) :
    ∏ j ∈ Finset.range k, ∏ i ∈ Finset.range n, f (j * n + i) = ∏ v ∈ Finset.range (k * n), f v := by
  induction k with
  | zero => simp
  | succ k ih => rw [Finset.prod_range_succ, ih, Nat.succ_mul, Finset.prod_range_add]

omit [DecidableEq F] in
theorem list_prod_range (f : Nat → F) (n : Nat) : ((List.range n).map f).prod = ∏ i ∈ Finset.range n, f i := by
  induction n with
  | zero => simp
  | succ n ih => rw [List.range_succ, List.map_append, List.prod_append, ih, Finset.prod_range_succ]; simp

omit [DecidableEq F] in
theorem place_block (root : F) (κ : Nat → F) (n j i : Nat) (hi : i < n) : place root κ n (j * n + i) = κ j * root ^ i := by
  have hn : 0 < n := by omega
  rw [place, mul_comm j n, Nat.mul_add_div hn, Nat.div_eq_of_lt hi, add_zero, Nat.mul_add_mod, Nat.mod_eq_of_lt hi]

omit [DecidableEq F] in
/-- all numerators together are all denominators together, when the values are invariant under the permutation -/
theorem prod_num_den (root : F) (κ W : Nat → F) (σ : Nat → Nat) (n : Nat) (beta gamma : F)
    (hσ : ((List.range (5 * n)).map σ).Perm (List.range (5 * n))) (hW : ∀ v < 5 * n, W (σ v) = W v) :
    ∏ i ∈ Finset.range n, zNum root κ W n beta gamma i = ∏ i ∈ Finset.range n, zDen root κ W σ n beta gamma i := by
  unfold zNum zDen
  rw [Finset.prod_comm, Finset.prod_comm (s := Finset.range n) (t := Finset.range 5)
    (f := fun i j => W (j * n + i) + gamma + beta * place root κ n (σ (j * n + i)))]
  have e1 : ∏ j ∈ Finset.range 5, ∏ i ∈ Finset.range n, (W (j * n + i) + gamma + beta * (κ j * root ^ i)) =
      ∏ j ∈ Finset.range 5, ∏ i ∈ Finset.range n, (fun v => W v + gamma + beta * place root κ n v) (j * n + i) := by
    refine Finset.prod_congr rfl fun j _ => Finset.prod_congr rfl fun i hi => ?_
    simp only
    rw [place_block root κ n j i (Finset.mem_range.1 hi)]
  rw [e1, prod_blocks (fun v => W v + gamma + beta * place root κ n v), prod_blocks (fun v => W v + gamma + beta * place root κ n (σ v)), ← list_prod_range, ← list_prod_range]
  rw [← (hσ.map (fun v => W v + gamma + beta * place root κ n v)).prod_eq, List.map_map]
  congr 1
  refine List.map_congr_left fun v hv => ?_
  simp only [Function.comp]
  rw [hW v (List.mem_range.1 hv)]

/-- the accumulator satisfies the step equation in every row, also from the last to the first -/
theorem accum_step (root : F) (κ W : Nat → F) (σ : Nat → Nat) (n : Nat) (beta gamma : F) (hn : 0 < n)
    (hσ : ((List.range (5 * n)).map σ).Perm (List.range (5 * n))) (hW : ∀ v < 5 * n, W (σ v) = W v) (V : Nat → F)
    (hden : ∀ i < n - 1, zDen root κ W σ n beta gamma i ≠ 0)
    (hV : ∀ k < n, V k * ∏ i ∈ Finset.range k, zDen root κ W σ n beta gamma i = ∏ i ∈ Finset.range k, zNum root κ W n beta gamma i)
    (i : Nat) (hi : i < n) :
    V 0 = 1 ∧ V i * zNum root κ W n beta gamma i = V ((i + 1) % n) * zDen root κ W σ n beta gamma i := by
  have h0 : V 0 = 1 := by simpa using hV 0 hn
  refine ⟨h0, ?_⟩
  have hne : ∏ i ∈ Finset.range i, zDen root κ W σ n beta gamma i ≠ 0 := by
    rw [Finset.prod_ne_zero_iff]
    intro j hj
    have := Finset.mem_range.1 hj
    exact hden j (by omega)
  apply mul_right_cancel₀ hne
  by_cases hl : i + 1 < n
  · have h1 := hV (i + 1) hl
    rw [Finset.prod_range_succ, Finset.prod_range_succ, ← hV i hi] at h1
    rw [Nat.mod_eq_of_lt hl]
    linear_combination -h1
  · have hin : i + 1 = n := by omega
    rw [hin, Nat.mod_self, h0]
    have h1 := prod_num_den root κ W σ n beta gamma hσ hW
    rw [← hin, Finset.prod_range_succ, Finset.prod_range_succ, hin, ← hV i hi] at h1
    linear_combination h1

/-! ### Wire values -/

/-- the value on position `v` of the concatenated wires -/
def wireVal (cs : CS F) (w : List F) (v : Nat) : F := w[(cs.wiring[v]?).getD 0]?.getD 0

omit [DecidableEq F] in
theorem wiring_get {cs : CS F} {i j : Nat} {g : Gate F} (hg : cs.gates[i]? = some g) (hj : j < 5) :
    cs.wiring[j * cs.gates.length + i]? = g.wires[j]? := by
  have hi := (List.getElem?_eq_some_iff.1 hg).1
  have hm : ∀ f : Gate F → Nat, (cs.gates.map f)[i]? = some (f g) := fun f => by rw [List.getElem?_map, hg]; rfl
  unfold CS.wiring
  interval_cases j
  · simp only [List.append_assoc, zero_mul, zero_add]
    rw [List.getElem?_append_left (by simpa using hi), hm]; rfl
  · simp only [List.append_assoc]
    rw [List.getElem?_append_right (by simp), List.getElem?_append_left (by simp; omega), List.length_map,
      show 1 * cs.gates.length + i - cs.gates.length = i by omega, hm]; rfl
  · simp only [List.append_assoc]
    rw [List.getElem?_append_right (by simp; omega), List.getElem?_append_right (by simp; omega),
      List.getElem?_append_left (by simp; omega)]
    simp only [List.length_map]
    rw [show 2 * cs.gates.length + i - cs.gates.length - cs.gates.length = i by omega, hm]; rfl
  · simp only [List.append_assoc]
    rw [List.getElem?_append_right (by simp; omega), List.getElem?_append_right (by simp; omega),
      List.getElem?_append_right (by simp; omega), List.getElem?_append_left (by simp; omega)]
    simp only [List.length_map]
    rw [show 3 * cs.gates.length + i - cs.gates.length - cs.gates.length - cs.gates.length = i by omega, hm]; rfl
  · simp only [List.append_assoc]
    rw [List.getElem?_append_right (by simp; omega), List.getElem?_append_right (by simp; omega),
      List.getElem?_append_right (by simp; omega), List.getElem?_append_right (by simp; omega)]
    simp only [List.length_map]
    rw [show 4 * cs.gates.length + i - cs.gates.length - cs.gates.length - cs.gates.length - cs.gates.length = i by omega, hm]; rfl

omit [DecidableEq F] in
theorem wireVal_gate {cs : CS F} {i j : Nat} {g : Gate F} (hg : cs.gates[i]? = some g) (hj : j < 5) (w : List F) :
    wireVal cs w (j * cs.gates.length + i) = w[(g.wires[j]?).getD 0]?.getD 0 := by
  rw [wireVal, wiring_get hg hj]

omit [DecidableEq F] in
theorem optMapM_some {α β : Type} (f : α → Option β) (g : α → β) : ∀ l : List α, (∀ x ∈ l, f x = some (g x)) → l.mapM f = some (l.map g)
  | [], _ => by simp
  | a :: l, h => by
    rw [List.mapM_cons, h a (by simp), optMapM_some f g l (fun x hx => h x (by simp [hx]))]
    rfl

omit [DecidableEq F] in
theorem extend_eq {cs : CS F} (h : WF cs) (w : List F) (hw : w.length = cs.numVars) :
    extendWitness cs.wiring w = some ((List.range (5 * cs.gates.length)).map (wireVal cs w)) := by
  unfold extendWitness
  rw [optMapM_some _ (fun x => w[x]?.getD 0)]
  · congr 1
    refine List.ext_getElem? fun v => ?_
    rw [List.getElem?_map, List.getElem?_map]
    by_cases hv : v < 5 * cs.gates.length
    · obtain ⟨x, hx⟩ : ∃ x, cs.wiring[v]? = some x := ⟨_, List.getElem?_eq_getElem (by rw [wiring_length]; exact hv)⟩
      rw [List.getElem?_range hv, Option.map_some, wireVal, hx]; rfl
    · rw [List.getElem?_eq_none (by rw [wiring_length]; omega), List.getElem?_eq_none (by simp; omega)]; rfl
  · intro x hx
    have := wiring_lt h x hx
    rw [List.getElem?_eq_getElem (by omega)]; rfl

omit [DecidableEq F] in
theorem wireVal_sigma {cs : CS F} (h : WF cs) (w : List F) (v : Nat) (hv : v < 5 * cs.gates.length) :
    wireVal cs w (sigma cs v) = wireVal cs w v := by
  obtain ⟨x, e1, e2, -⟩ := isNext_permAt (nv := cs.numVars) (wiring_lt h) (p := v) (by rw [wiring_length]; exact hv)
  unfold wireVal sigma
  rw [e1, e2]

omit [DecidableEq F] in
theorem sigma_perm {cs : CS F} (h : WF cs) :
    ((List.range (5 * cs.gates.length)).map (sigma cs)).Perm (List.range (5 * cs.gates.length)) := by
  rw [← (perm_eq h).1]
  have := C48_is_permutation cs.wiring cs.numVars (wiring_lt h)
  rwa [wiring_length] at this

/-! ### Public inputs -/

omit [DecidableEq F] in
theorem piAt_findIdx (i : Nat) : ∀ (cons : List Nat) (pi : List F), cons.Nodup → cons.length = pi.length →
    (match cons.findIdx? (fun x => decide (x = i)) with
      | some pos => index pi pos
      | none => .ok 0) = .ok (Spec.piAt cons pi i)
  | [], [], _, _ => by simp [Spec.piAt]
  | [], _ :: _, _, h => by simp at h
  | _ :: _, [], _, h => by simp at h
  | c :: cons, v :: pi, hd, hl => by
    rw [List.nodup_cons] at hd
    rw [piAt_cons c cons v pi hd.1, List.findIdx?_cons]
    have ih := piAt_findIdx i cons pi hd.2 (by simpa using hl)
    by_cases h : c = i
    · subst h
      have h0 : Spec.piAt cons pi c = 0 := by
        unfold Spec.piAt
        refine piAt_none _ _ _ fun e he h' => ?_
        exact hd.1 (h' ▸ (List.of_mem_zip he).1)
      simp [h0, index]
    · simp only [h, decide_false, if_false, zero_add, Bool.false_eq_true]
      rw [← ih]
      cases cons.findIdx? (fun x => decide (x = i)) with
      | none => rfl
      | some p => simp [index]

theorem piPoly_eq (s : F) (g : G1) (rootM root : F) (κ : Nat → F) (cs : CS F) (hwf : WF cs)
    (D : Domain cs.gates.length rootM root κ) (pi : List F) (hl : cs.pubCons.length = pi.length) :
    piPoly (pkOf s g rootM root κ cs) pi = .ok (piInterp root cs.gates.length cs.pubCons pi) := by
  have h1 : (pkOf s g rootM root κ cs).group.length = cs.gates.length := by simp [pkOf]
  unfold piPoly
  rw [h1, mapM_ok _ (Spec.piAt cs.pubCons pi)]
  · exact (interp_spec D _).1
  · intro i _
    exact piAt_findIdx i cs.pubCons pi hwf.nodup hl

/-! ### Hidden columns -/

theorem commitHidden_eq (P : Pairing F G1 G2 Gt) (msm : List F → List G1 → Res G1) (hm : MsmCorrect msm) (d : Nat) (s : F)
    {n : Nat} {rootM root : F} {κ : Nat → F} (D : Domain n rootM root κ) (lag : Option (Params G1 G2))
    (hlag : LagrangeOk P s root n lag) (values blinds : List F) (hv : values ≠ []) (hl : values.length ≤ n)
    (hd : n + blinds.length ≤ d + 1) :
    ∃ q, commitHidden msm (setup P d s) (useLagrange lag n) root n values blinds = .ok ((toPoly q).eval s • P.base1, q) ∧ Normal q ∧
      q.length ≤ n + blinds.length ∧ ∀ i < n, (toPoly q).eval (root ^ i) = (values[i]?).getD 0 := by
  obtain ⟨h1, h2, h3, h4, -⟩ := interp_spec D values
  obtain ⟨q, q1, q2, q3, q4, q5⟩ := C60_hide blinds (interp root n values) n h2
  refine ⟨q, ?_, q2, le_trans q3 (max_le (by omega) (le_refl _)), fun i hi => by rw [q5 _ (D.root_pow i), h4 i hi]⟩
  unfold commitHidden
  rw [h1, Res.bind_ok, q1, Res.bind_ok]
  cases hlg : useLagrange lag n with
  | none =>
    simp only
    rw [C59_commit P msm hm d s q q2.1, if_pos (le_trans q3 (max_le (by omega) hd)), Res.bind_ok]
    rfl
  | some lp =>
    simp only
    rw [commit_lagrange P.base1 msm hm s D lp (hlag.use lp hlg) values hv hl, Res.bind_ok, C59_apply_blind_factors P d n s blinds _ hd,
      Res.bind_ok, ← add_smul, ← eval_add, ← q4]
    rfl

/-! ### Satisfying witnesses -/

/-- the combined constraints of a satisfying witness vanish on the domain -/
theorem numer_vanishes {rootM root : F} {κ : Nat → F} {cs : CS F} (hwf : WF cs) (D : Domain cs.gates.length rootM root κ)
    (wit : List F) (pi : List F) (hsat : Spec.Sat cs (fun v => wit[v]?.getD 0) pi) (beta gamma alpha : F) (w : Nat → F[X]) (z : F[X])
    (hw : ∀ j < 5, ∀ i < cs.gates.length, (w j).eval (root ^ i) = wireVal cs wit (j * cs.gates.length + i))
    (hden : ∀ i < cs.gates.length - 1, zDen root κ (wireVal cs wit) (sigma cs) cs.gates.length beta gamma i ≠ 0)
    (hz : ∀ k < cs.gates.length, z.eval (root ^ k) *
        ∏ i ∈ Finset.range k, zDen root κ (wireVal cs wit) (sigma cs) cs.gates.length beta gamma i =
      ∏ i ∈ Finset.range k, zNum root κ (wireVal cs wit) cs.gates.length beta gamma i) :
    ∀ i < cs.gates.length, (numerPoly root κ cs beta gamma alpha w z (toPoly (piInterp root cs.gates.length cs.pubCons pi))).eval
      (root ^ i) = 0 := by
  intro i hi
  have hn := D.pos
  obtain ⟨g, hg⟩ : ∃ g, cs.gates[i]? = some g := ⟨_, List.getElem?_eq_getElem hi⟩
  obtain ⟨hgate, hbool⟩ := hsat i g hg
  obtain ⟨a0, astep⟩ := accum_step root κ (wireVal cs wit) (sigma cs) cs.gates.length beta gamma hn (sigma_perm hwf)
    (wireVal_sigma hwf wit) (fun k => z.eval (root ^ k)) hden hz i hi
  have hnext : root * root ^ i = root ^ ((i + 1) % cs.gates.length) := by
    rw [← pow_succ']
    conv_lhs => rw [← Nat.mod_add_div (i + 1) cs.gates.length, pow_add, pow_mul, D.primN.pow_eq_one, one_pow, mul_one]
  have hwg : ∀ j < 5, (w j).eval (root ^ i) = wit[(g.wires[j]?).getD 0]?.getD 0 := fun j hj => by
    rw [hw j hj i hi, wireVal_gate hg hj]
  rw [numerPoly_eval, numer]
  have e1 : gateForm (fun j => (selPoly root cs j).eval (root ^ i)) (fun j => (w j).eval (root ^ i))
      ((toPoly (piInterp root cs.gates.length cs.pubCons pi)).eval (root ^ i)) = 0 := by
    rw [piInterp_eval D _ _ i hi]
    rw [← gateForm_holds] at hgate
    rw [← hgate]
    unfold gateForm
    simp only [selPoly_eval D hg (show 0 < 13 by omega), selPoly_eval D hg (show 1 < 13 by omega), selPoly_eval D hg (show 2 < 13 by omega),
      selPoly_eval D hg (show 3 < 13 by omega), selPoly_eval D hg (show 4 < 13 by omega), selPoly_eval D hg (show 5 < 13 by omega),
      selPoly_eval D hg (show 6 < 13 by omega), selPoly_eval D hg (show 7 < 13 by omega), selPoly_eval D hg (show 8 < 13 by omega),
      selPoly_eval D hg (show 9 < 13 by omega), selPoly_eval D hg (show 10 < 13 by omega), selPoly_eval D hg (show 11 < 13 by omega),
      selPoly_eval D hg (show 12 < 13 by omega), hwg 0 (by omega), hwg 1 (by omega), hwg 2 (by omega), hwg 3 (by omega), hwg 4 (by omega)]
  have e2 : permForm beta gamma (fun j => (w j).eval (root ^ i)) κ (fun j => (sigmaPoly root κ cs j).eval (root ^ i)) (root ^ i)
      (z.eval (root ^ i)) (z.eval (root * root ^ i)) = 0 := by
    unfold permForm
    rw [hnext, sub_eq_zero]
    refine Eq.trans ?_ (astep.trans ?_)
    · congr 1
      exact Finset.prod_congr rfl fun j hj => by simp only; rw [hw j (Finset.mem_range.1 hj) i hi]
    · congr 1
      exact Finset.prod_congr rfl fun j hj => by simp only; rw [hw j (Finset.mem_range.1 hj) i hi, sigmaPoly_eval D hi]
  have e3 : (∑ j ∈ Finset.range cs.gates.length, (root ^ i) ^ j) * (z.eval (root ^ i) - 1) = 0 := by
    rw [l1_eval D hi]
    by_cases h0 : i = 0
    · subst h0
      rw [a0, sub_self, mul_zero]
    · rw [if_neg h0, zero_mul]
  have e4 : ∀ j, j < 5 → 1 ≤ j → j ≤ 3 → (boolPoly root cs).eval (root ^ i) * ((w j).eval (root ^ i) * ((w j).eval (root ^ i) - 1)) = 0 := by
    intro j hj h1 h3
    rw [boolPoly_eval D hi]
    by_cases hb : i ∈ cs.boolIdx
    · obtain ⟨b1, b2, b3⟩ := hbool hb
      rw [if_pos hb, one_mul, hwg j hj]
      have hbit : Spec.IsBit (wit[(g.wires[j]?).getD 0]?.getD 0) := by
        interval_cases j
        · exact b1
        · exact b2
        · exact b3
      rcases hbit with h | h <;> rw [h] <;> simp
    · rw [if_neg hb, zero_mul]
  rw [e1, e2, e3, e4 1 (by omega) (by omega) (by omega), e4 2 (by omega) (by omega) (by omega), e4 3 (by omega) (by omega) (by omega)]
  simp

end Verif.Snark
