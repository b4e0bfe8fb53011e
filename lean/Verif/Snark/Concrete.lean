import Verif.Snark.ForgeShaped

/-!
Concrete keys over the field of order 97: an unsatisfiable system with accepted proofs (C70), and cases of the theorems of C60.
-/

namespace Verif.Snark

open Verif.Poly Verif.Plonk Polynomial
open Verif.AnonCreds (Pairing)

instance : Fact (Nat.Prime 97) := ⟨by norm_num⟩

/-- the pairing `e(a, b) = a b` of the group of order 97 with itself -/
def pairing97 : Pairing (ZMod 97) (ZMod 97) (ZMod 97) (ZMod 97) where
  base1 := 1
  base2 := 1
  e a b := a * b
  add_left := by intros; ring
  add_right := by intros; ring
  smul_left := by intros; simp [mul_assoc]
  smul_right := by intros; simp; ring

theorem pairing97_nonDegenerate : NonDegenerate pairing97 where
  separates := by intro a h; simpa [pairing97] using h
  base := by simp [pairing97]

/-- the linear combination itself -/
def msm97 (s g : List (ZMod 97)) : Res (ZMod 97) := .ok (List.zipWith (fun a b => a • b) s g).sum

theorem msm97_correct : MsmCorrect msm97 := fun _ _ _ => rfl

/-- representatives of cosets: 1, 5, 5³, 5⁵, 5⁷; 5 generates the group of units -/
def κ97 (i : Nat) : ZMod 97 := if i = 0 then 1 else 5 ^ (2 * i - 1)

/-- 28 = 5³ has order 32 -/
theorem prim28 : IsPrimitiveRoot (28 : ZMod 97) 32 := by
  have h : orderOf (28 : ZMod 97) = 2 ^ (4 + 1) := orderOf_eq_prime_pow (p := 2) (by decide +kernel) (by decide +kernel)
  have := IsPrimitiveRoot.orderOf (28 : ZMod 97)
  rwa [h] at this

/-- the domains for two gates: the roots of unity of order 2 and 32 -/
theorem domain97 : Domain 2 (28 : ZMod 97) (28 ^ 16) κ97 where
  pow := ⟨1, rfl⟩
  prim := prim28
  small := by decide
  root_eq := rfl
  k0 := rfl
  k1 := by decide +kernel
  outside := by decide +kernel

/-- the root of order 32 and no other -/
def rootOf97 (m : Nat) : Res (Option (ZMod 97)) := if m = 32 then .ok (some 28) else .ok none

/-- a system that nothing satisfies: the gates `1 = 0` and `0 = 0` -/
def unsat97 : CS (ZMod 97) :=
  { gates := [{ padGate with qc := 1 }, padGate], numVars := 2, pubCons := [], pubVars := [], boolIdx := [], witness := [0, 1] }

theorem unsat97_wf : WF unsat97 where
  len := rfl
  pi := by intro k c v h; simp [unsat97] at h
  nodup := by simp [unsat97]
  bool := by simp [unsat97]
  wit := rfl
  wires := by intro g hg v hv; simp [unsat97] at hg; rcases hg with rfl | rfl <;> simp [padGate, Gate.wires] at hv <;> simp [unsat97, hv]
  two := le_rfl

theorem unsat97_unsat (w : Nat → ZMod 97) (online : List (ZMod 97)) : ¬ Spec.Sat unsat97 w online := by
  intro h
  have := (h 0 _ rfl).1
  simp [Spec.Gate.Holds, padGate, Spec.piAt, unsat97] at this

/-- an oracle that depends on the transcript -/
def oracle97 : Oracle (ZMod 97) (ZMod 97) 2 where
  draw tr i := ((tr.length + i : Nat) : ZMod 97)
  live tr := by
    refine ⟨96 * tr.length + 2, ?_⟩
    have : (((tr.length + (96 * tr.length + 2) : Nat)) : ZMod 97) = 2 := by
      have h97 : (97 : ZMod 97) = 0 := by decide
      push_cast
      linear_combination (tr.length : ZMod 97) * h97
    rw [this]; decide

/-- an oracle that always answers 2 -/
def oracle97' : Oracle (ZMod 97) (ZMod 97) 2 where
  draw _ _ := 2
  live _ := ⟨0, by decide⟩

/-- C70, violated: a system that no assignment satisfies for any public inputs, and for every secret and all public inputs a proof
that the verifier accepts with the key of the indexer. -/
theorem C70_unsatisfiable_accepted :
    WF unsat97 ∧ (∀ w online, ¬ Spec.Sat unsat97 w online) ∧
      ∀ (s : ZMod 97) (tr : Tr (ZMod 97) (ZMod 97)) (pi : List (ZMod 97)),
        ∃ pk pf, indexer msm97 (setup pairing97 4 s) none rootOf97 ((List.range 5).map κ97) unsat97 = .ok pk ∧
          forgeLong oracle97 msm97 (setup pairing97 4 s) tr pk pi = .ok pf ∧
          verifier oracle97 pairing97 (setup pairing97 4 s) tr pk.vk pi pf = .ok () :=
  ⟨unsat97_wf, unsat97_unsat, fun s tr pi => C70_forged_long pairing97 pairing97_nonDegenerate msm97 msm97_correct 4 s none rootOf97
    κ97 28 (28 ^ 16) unsat97 unsat97_wf domain97 (by decide) rfl (by intro lp h; cases h) oracle97 tr pi⟩

/-- the same with a proof of the right shape -/
example (s : ZMod 97) (tr : Tr (ZMod 97) (ZMod 97)) (pi : List (ZMod 97)) :
    ∃ pk pf, indexer msm97 (setup pairing97 4 s) none rootOf97 ((List.range 5).map κ97) unsat97 = .ok pk ∧
      forgeShaped oracle97' msm97 (setup pairing97 4 s) tr pk pi = .ok pf ∧
      verifier oracle97' pairing97 (setup pairing97 4 s) tr pk.vk pi pf = .ok () ∧
      pf.cmW.length = 5 ∧ pf.cmT.length = 5 ∧ pf.wEv.length = 5 ∧ pf.sEv.length = 4 := by
  obtain ⟨pk, h1, h2⟩ := C70_forged_shaped pairing97 msm97 msm97_correct 4 s none rootOf97
    κ97 28 (28 ^ 16) unsat97 unsat97_wf domain97 (by decide) (by decide) (by decide) rfl (by intro lp h; cases h) oracle97' tr pi
  obtain ⟨pf, h3⟩ := h2 (by show (2 : ZMod 97) ≠ 0; decide) (by show (2 : ZMod 97) ≠ 0; decide)
  exact ⟨pk, pf, h1, h3⟩

/-- a proof without values -/
example (s : ZMod 97) (tr : Tr (ZMod 97) (ZMod 97)) (pi : List (ZMod 97)) :
    verifier oracle97 pairing97 (setup pairing97 4 s) tr (pkOf s 1 28 (28 ^ 16) κ97 unsat97).vk pi
      { cmW := [], cmT := [], cmZ := 0, wEv := [], zEv := 0, sEv := [], wit := 0, witOmega := 0 } = .panic :=
  C70_malformed_panics pairing97 _ s 1 28 (28 ^ 16) κ97 unsat97 unsat97_wf domain97 oracle97 tr pi _ (Or.inl (by decide))

/-! ### Cases of C60 -/

example : firstLagrange (3 : ZMod 97) 2 = .ok (8, 4) := by
  rw [C60_first_lagrange, if_neg (by decide)]
  decide +kernel

theorem root97 : IsPrimitiveRoot (28 ^ 16 : ZMod 97) 2 := domain97.primN

example : buildGroup (28 ^ 16 : ZMod 97) 2 = .ok [1, 96] := by
  rw [(C60_build_group _ 2 (by decide) root97).1]
  decide +kernel

/-- 28 has order 32, more than 4 -/
example : buildGroup (28 : ZMod 97) 4 = .err :=
  C60_build_group_too_large _ 4 (by decide) fun i h0 h4 h => by
    have := Nat.le_of_dvd h0 (prim28.dvd_of_pow_eq_one i h)
    omega

/-- blinding `1 + 2X` with `3, 4` over a domain of size 2: the same values at 1 and -1 -/
example : ∃ q, hidePolynomial [3, 4] [(1 : ZMod 97), 2] 2 = .ok q ∧ q ≠ [1, 2] ∧
    ∀ x : ZMod 97, x ^ 2 = 1 → (toPoly q).eval x = (toPoly [1, 2]).eval x := by
  obtain ⟨q, h1, -, -, h4, h5⟩ := C60_hide [3, 4] [(1 : ZMod 97), 2] 2 ⟨by simp, by simp; decide⟩
  refine ⟨q, h1, ?_, h5⟩
  rintro rfl
  have := congrArg (fun p => Polynomial.eval 2 p) h4
  simp [toPoly] at this
  revert this
  decide +kernel

/-- a quotient of six coefficients in two parts of two, the last part taking the rest -/
example : ∃ ps : List (List (ZMod 97)),
    splitT msm97 (setup pairing97 4 9) [1, 2, 3, 4, 5, 6] 2 [7, 8] = .ok (ps.map fun p => ((toPoly p).eval 9 • (1 : ZMod 97), p)) ∧
      ps.length = 2 ∧ ∀ x : ZMod 97, combine (x ^ 2) (ps.map fun p => (toPoly p).eval x) = (toPoly [1, 2, 3, 4, 5, 6]).eval x := by
  obtain ⟨ps, h1, h2, -, h4⟩ := C60_split pairing97 msm97 msm97_correct 4 9 [1, 2, 3, 4, 5, 6] [7, 8] 2 (by decide) (by decide)
    (by simp) (by simp)
  exact ⟨ps, h1, h2, h4⟩

example : lagrangeConstant ((List.range 2).map fun i => (28 ^ 16 : ZMod 97) ^ i) 1 = .ok 48 := by
  rw [C60_lagrange_constant _ 2 1 (by decide) root97]
  decide +kernel

/-- the accumulator of a trivial permutation is one everywhere -/
example : ∃ vals : List (ZMod 97),
    zPoly ((List.range (5 * 2)).map id) ((List.range (5 * 2)).map fun i => (i : ZMod 97))
        ((List.range 2).map fun i => (28 ^ 16 : ZMod 97) ^ i) ((List.range 5).map κ97) 2 3 = .ok (fromCoefs vals) ∧ vals.length = 2 := by
  obtain ⟨vals, h1, h2, -⟩ := (C60_z_poly (28 ^ 16 : ZMod 97) κ97 (fun i => (i : ZMod 97)) id 2 2 3 (by decide) (fun v h => h)).1
    (by intro i hi; have : i = 0 := by omega
        subst this; decide +kernel)
  exact ⟨vals, h1, h2⟩

example : ∃ pk, indexer msm97 (setup pairing97 4 9) none rootOf97 ((List.range 5).map κ97) unsat97 = .ok pk :=
  ⟨_, C60_indexer pairing97 msm97 msm97_correct 4 9 none rootOf97 κ97 28 (28 ^ 16) unsat97 unsat97_wf domain97 (by decide) rfl
    (by intro lp h; cases h)⟩

/-- the challenges of the next case -/
def ch97 : Challenges (ZMod 97) := { beta := 2, gamma := 3, alpha := 4, zeta := 5, u := 6 }

/-- commitment with the secret 9 -/
noncomputable def cm97 (p : List (ZMod 97)) : ZMod 97 := (toPoly p).eval 9 • (1 : ZMod 97)

/-- polynomials of degree one, five wires with the values 1, 2, 3, 4, 5 -/
example : ∃ mult r c, evalSelectorMultipliers [(1 : ZMod 97), 2, 3, 4, 5] = some mult ∧
    rPolyOrComm polyOps mult (List.replicate 13 [1, 1]) [1] [1, 5, 28, 21, 40] [2, 3] [1, 4] [1, 2, 3, 4, 5] [6, 7, 8, 9] 10 ch97
      [[1], [2]] 6 24 4 = .ok r ∧
    rPolyOrComm commOps mult ((List.replicate 13 [1, 1]).map cm97) (cm97 [1]) [1, 5, 28, 21, 40] (cm97 [2, 3]) (cm97 [1, 4])
      [1, 2, 3, 4, 5] [6, 7, 8, 9] 10 ch97 ([[1], [2]].map cm97) 6 24 4 = .ok c ∧ c = cm97 r := by
  obtain ⟨r, c, h1, h2, h3, -⟩ := C60_linearisation_commitment (9 : ZMod 97) (1 : ZMod 97) [1, 2, 3, 4, 5] [1, 5, 28, 21, 40] [6, 7, 8, 9]
    10 ch97 6 24 4 _ rfl rfl rfl (by decide) (List.replicate 13 [(1 : ZMod 97), 1]) (by simp) [1] [2, 3] [1, 4] [[1], [2]] (by simp)
  exact ⟨_, r, c, rfl, h1, h2, h3⟩

end Verif.Snark
