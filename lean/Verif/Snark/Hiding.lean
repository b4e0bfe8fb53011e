import Mathlib.LinearAlgebra.Vandermonde
import Mathlib.LinearAlgebra.Matrix.NonsingularInverse
import Mathlib.SetTheory.Cardinal.Finite
import Verif.Snark.Describe
import Verif.Snark.Concrete

/-!
C89: what a PLONK proof shows of the witness.  A simulator that knows the secret of the parameters and the public values, and not the
witness, makes every proof exactly as often as the prover does.
-/

namespace Verif.Snark

open Verif.Poly Verif.Plonk Polynomial
open Verif.AnonCreds (Pairing)

variable {F G1 G2 Gt : Type} [Field F] [DecidableEq F] [AddCommGroup G1] [Module F G1] [AddCommGroup G2] [Module F G2]
  [AddCommGroup Gt] [Module F Gt] [DecidableEq Gt]

/-! ### Specification -/

/-- the random values that the prover draws, in the numbers of prover.rs:149,165 (two per wire), 186,200 (three) and helpers.rs:719 (one per part of
the quotient) -/
structure Rand (F : Type) where
  w : Fin 5 → Fin 2 → F
  z : Fin 3 → F
  t : Fin 5 → F

/-- the same as lists -/
def Rand.coins (r : Rand F) : Coins F := ⟨List.ofFn fun j => List.ofFn (r.w j), List.ofFn r.z, List.ofFn r.t⟩

/-- the random values of the simulator -/
structure View (F : Type) where
  /-- for the commitments to the wires -/
  ws : Fin 5 → F
  /-- for the values of the wires at `ζ` -/
  wz : Fin 5 → F
  /-- for the commitment to the accumulator -/
  zs : F
  /-- for the accumulator at the next point after the secret -/
  zos : F
  /-- for the value of the accumulator at `ωζ` -/
  zoz : F
  /-- for the commitments to the parts of the quotient but the last -/
  t : Fin 4 → F

/-- five values as a function of all indices -/
def ext5 (f : Fin 5 → F) (j : Nat) : F := if h : j < 5 then f ⟨j, h⟩ else 0

/-- the values at the secret of the parts of the quotient: random ones, and a last one for which they add up to the value of the quotient -/
noncomputable def simParts (s root : F) (κ : Nat → F) (cs : CS F) (online : List F) (beta gamma alpha : F) (x : View F) : List F :=
  let tS := numer beta gamma alpha (fun j => (selPoly root cs j).eval s) (ext5 x.ws) κ (fun j => (sigmaPoly root κ cs j).eval s) s x.zs x.zos
    (∑ i ∈ Finset.range cs.gates.length, s ^ i) ((boolPoly root cs).eval s)
    ((toPoly (piInterp root cs.gates.length cs.pubCons online)).eval s) / (s ^ cs.gates.length - 1)
  let m := s ^ (cs.gates.length + 2)
  [x.t 0, x.t 1, x.t 2, x.t 3, (tS - (x.t 0 + m * x.t 1 + m ^ 2 * x.t 2 + m ^ 3 * x.t 3)) / m ^ 4]

/-- The simulator: it has the secret `s` of the parameters, the system and the public values.  It takes for all commitments and values
random ones, for the last part of the quotient the one that fits, and for the openings what the verifier's equations ask for. -/
noncomputable def simulate {n : Nat} (O : Oracle F G1 n) (g : G1) (s : F) (tr : Tr F G1) (rootM root : F) (κ : Nat → F) (cs : CS F) (online : List F)
    (x : View F) : Proof G1 F :=
  let vk := (pkOf s g rootM root κ cs).vk
  let pi := toPoly (piInterp root cs.gates.length cs.pubCons online)
  let cmW := (List.range 5).map fun j => ext5 x.ws j • g
  let b := challenge O (initPlonk tr vk online ++ cmW.map .commitment) "beta"
  let c := challenge O b.2 "gamma"
  let cmZ := x.zs • g
  let a := challenge O (appendCommitment c.2 cmZ) "alpha"
  let cmT := (simParts s root κ cs online b.1 c.1 a.1 x).map (· • g)
  let e := challenge O (a.2 ++ cmT.map .commitment) "zeta"
  let wEv := (List.range 5).map (ext5 x.wz)
  let sEv := (List.range 4).map fun j => (sigmaPoly root κ cs j).eval e.1
  let u := challenge O (e.2 ++ (wEv ++ sEv).map .field ++ [.field x.zoz]) "u"
  let ch : Challenges F := ⟨b.1, c.1, a.1, e.1, u.1⟩
  let rEv := rEvalForm (ext5 x.wz) (fun j => (sigmaPoly root κ cs j).eval e.1) x.zoz ch (pi.eval e.1) (∑ i ∈ Finset.range cs.gates.length, e.1 ^ i)
  let cmR := cmRForm vk ((sigmaPoly root κ cs 4).eval s • g) (ext5 x.wz) sEv x.zoz ch cmZ cmT
  let o := batchLoop (O.draw (initBatchEval u.2 (cs.gates.length + 2) e.1 ++ [.challenge "alpha"]) 0) (wEv ++ sEv ++ [rEv])
    (cmW ++ vk.cmS.take 4 ++ [cmR]) 1 (0, 0)
  { cmW := cmW, cmT := cmT, cmZ := cmZ, wEv := wEv, zEv := x.zoz, sEv := sEv, wit := (s - e.1)⁻¹ • (o.1 - o.2 • g)
    witOmega := (s - root * e.1)⁻¹ • (cmZ - x.zoz • g) }

/-- The challenges of a proof are good for a witness: no denominator of the accumulator vanishes, and `ζ` and `ωζ` are not the secret of the
parameters. -/
def GoodFor {n : Nat} (O : Oracle F G1 n) (g : G1) (s : F) (tr : Tr F G1) (rootM root : F) (κ : Nat → F) (cs : CS F) (online wit : List F)
    (proof : Proof G1 F) : Prop :=
  let ch := (computeChallenges O (initPlonk tr (pkOf s g rootM root κ cs).vk online) proof).1
  (∀ i < cs.gates.length - 1, zDen root κ (wireVal cs wit) (sigma cs) cs.gates.length ch.beta ch.gamma i ≠ 0) ∧ s ≠ ch.zeta ∧ s ≠ root * ch.zeta

/-! ### Random values and values of the hidden polynomials -/

omit [DecidableEq F] in
theorem eval_ofFn : ∀ {k : Nat} (b : Fin k → F) (x : F), (toPoly (List.ofFn b)).eval x = ∑ i : Fin k, b i * x ^ (i : Nat)
  | 0, b, x => by simp [toPoly]
  | k + 1, b, x => by
    rw [List.ofFn_succ, toPoly, eval_add, eval_C, eval_mul, eval_X, eval_ofFn, Fin.sum_univ_succ, Finset.mul_sum]
    simp only [Fin.val_zero, pow_zero, mul_one, Fin.val_succ]
    congr 1
    refine Finset.sum_congr rfl fun i _ => ?_
    ring

omit [DecidableEq F] in
/-- the values of a hidden polynomial at as many points as there are random values, none of them in the domain -/
theorem hidden_bijective [DecidableEq F] (root : F) (n : Nat) (values : List F) {k : Nat} (p : Fin k → F) (hp : Function.Injective p)
    (hpn : ∀ j, p j ^ n ≠ 1) : Function.Bijective fun (b : Fin k → F) (j : Fin k) => (hidden root n values (List.ofFn b)).eval (p j) := by
  have hu : IsUnit (Matrix.vandermonde p) := by
    rw [Matrix.isUnit_iff_isUnit_det, isUnit_iff_ne_zero, Matrix.det_vandermonde_ne_zero_iff]
    exact hp
  have hform : ∀ (b : Fin k → F) (j : Fin k), (hidden root n values (List.ofFn b)).eval (p j) =
      (toPoly (interp root n values)).eval (p j) + (Matrix.vandermonde p).mulVec b j * (1 - p j ^ n) := by
    intro b j
    rw [hidden, eval_add, eval_mul, eval_sub, eval_one, eval_pow, eval_X, eval_ofFn]
    congr 2
    simp [Matrix.mulVec, dotProduct, Matrix.vandermonde, mul_comm]
  have h1 : ∀ j, (1 - p j ^ n : F) ≠ 0 := fun j => sub_ne_zero.2 (hpn j).symm
  constructor
  · intro b b' h
    apply Matrix.mulVec_injective_iff_isUnit.2 hu
    funext j
    have := congrFun h j
    simp only [hform] at this
    exact mul_right_cancel₀ (h1 j) (add_left_cancel this)
  · intro v
    obtain ⟨b, hb⟩ := Matrix.mulVec_surjective_iff_isUnit.2 hu fun j => (v j - (toPoly (interp root n values)).eval (p j)) / (1 - p j ^ n)
    refine ⟨b, ?_⟩
    funext j
    simp only [hform, hb]
    rw [div_mul_cancel₀ _ (h1 j)]
    ring

section view
variable (s root : F) (κ : Nat → F) (cs : CS F) (wit online : List F)

/-- the polynomial of wire `j` with the random values of the prover -/
noncomputable def wireP (r : Rand F) (j : Nat) : F[X] := hidden root cs.gates.length (wireColumn cs wit j) (r.coins.w[j]?.getD [])

/-- the polynomial of the accumulator -/
noncomputable def accP (r : Rand F) (beta gamma : F) : F[X] := hidden root cs.gates.length (accColumn root κ cs wit beta gamma) (List.ofFn r.z)

/-- the polynomial that the constraints are folded into -/
noncomputable def numerP (r : Rand F) (beta gamma alpha : F) : F[X] :=
  numerPoly root κ cs beta gamma alpha (wireP root cs wit r) (accP root κ cs wit r beta gamma)
    (toPoly (piInterp root cs.gates.length cs.pubCons online))

/-- the coefficients of the quotient -/
noncomputable def quotP (r : Rand F) (beta gamma alpha : F) : List F :=
  (exists_normal (numerP root κ cs wit online r beta gamma alpha /ₘ (X ^ cs.gates.length - 1))).choose

/-- the parts of the quotient -/
noncomputable def partsP (r : Rand F) (beta gamma alpha : F) : List F[X] :=
  partPolys (quotP root κ cs wit online r beta gamma alpha) (cs.gates.length + 2) 0 (List.ofFn r.t) 0

/-- what the proof depends on of the prover's random values -/
noncomputable def view (beta gamma alpha zeta : F) (r : Rand F) : View F where
  ws j := (wireP root cs wit r j).eval s
  wz j := (wireP root cs wit r j).eval zeta
  zs := (accP root κ cs wit r beta gamma).eval s
  zos := (accP root κ cs wit r beta gamma).eval (root * s)
  zoz := (accP root κ cs wit r beta gamma).eval (root * zeta)
  t i := ((partsP root κ cs wit online r beta gamma alpha)[(i : Nat)]?.getD 0).eval s

end view

theorem wireP_fin (root : F) (cs : CS F) (wit : List F) (r : Rand F) (j : Fin 5) :
    wireP root cs wit r j = hidden root cs.gates.length (wireColumn cs wit j) (List.ofFn (r.w j)) := by
  have h : r.coins.w[(j : Nat)]? = some (List.ofFn (r.w j)) := by
    show (List.ofFn fun j => List.ofFn (r.w j))[(j : Nat)]? = _
    rw [List.getElem?_ofFn, dif_pos j.2]
  rw [wireP, h, Option.getD_some]

theorem quotP_normal (root : F) (κ : Nat → F) (cs : CS F) (wit online : List F) (r : Rand F) (beta gamma alpha : F) :
    Normal (quotP root κ cs wit online r beta gamma alpha) :=
  (exists_normal (numerP root κ cs wit online r beta gamma alpha /ₘ (X ^ cs.gates.length - 1))).choose_spec.1

omit [AddCommGroup G1] [Module F G1] in
theorem quotP_spec {rootM root : F} {κ : Nat → F} {cs : CS F} (hwf : WF cs) (D : Domain cs.gates.length rootM root κ)
    (wit online : List F) (hsat : Spec.Sat cs (fun v => wit[v]?.getD 0) online) (r : Rand F) (beta gamma alpha : F)
    (hden : ∀ i < cs.gates.length - 1, zDen root κ (wireVal cs wit) (sigma cs) cs.gates.length beta gamma i ≠ 0) :
    numerP root κ cs wit online r beta gamma alpha = (X ^ cs.gates.length - 1) * toPoly (quotP root κ cs wit online r beta gamma alpha) := by
  obtain ⟨t, t1, t2⟩ := quotient_exists hwf D wit online hsat beta gamma alpha hden (fun j => r.coins.w[j]?.getD []) (List.ofFn r.z)
  have hmon : (X ^ cs.gates.length - 1 : F[X]).Monic := monic_X_pow_sub_C (1 : F) (by have := D.pos; omega)
  have h2 : numerP root κ cs wit online r beta gamma alpha = (X ^ cs.gates.length - 1) * toPoly t := t2
  have h3 : toPoly (quotP root κ cs wit online r beta gamma alpha) = numerP root κ cs wit online r beta gamma alpha /ₘ (X ^ cs.gates.length - 1) :=
    (exists_normal (numerP root κ cs wit online r beta gamma alpha /ₘ (X ^ cs.gates.length - 1))).choose_spec.2
  rw [h3, h2, Polynomial.mul_divByMonic_cancel_left _ hmon]

omit [DecidableEq F] in
theorem partPolys_five (t : List F) (m : Nat) (a b c d e : F) :
    partPolys t m 0 [a, b, c, d, e] 0 = [toPoly (t.take m) + C a * X ^ m, toPoly ((t.drop m).take m) + C b * X ^ m - C a,
      toPoly ((t.drop (2 * m)).take m) + C c * X ^ m - C b, toPoly ((t.drop (3 * m)).take m) + C d * X ^ m - C c,
      toPoly (t.drop (4 * m)) - C d] := by
  simp [partPolys]

theorem parts_sum (t : List F) (m : Nat) (a b c d : F) (x : F) :
    (toPoly (t.take m) + C a * X ^ m).eval x + x ^ m * (toPoly ((t.drop m).take m) + C b * X ^ m - C a).eval x +
      (x ^ m) ^ 2 * (toPoly ((t.drop (2 * m)).take m) + C c * X ^ m - C b).eval x +
      (x ^ m) ^ 3 * (toPoly ((t.drop (3 * m)).take m) + C d * X ^ m - C c).eval x +
      (x ^ m) ^ 4 * (toPoly (t.drop (4 * m)) - C d).eval x = (toPoly t).eval x := by
  rw [toPoly_take_drop t m, toPoly_take_drop (t.drop m) m, List.drop_drop, show m + m = 2 * m by ring, toPoly_take_drop (t.drop (2 * m)) m,
    List.drop_drop, show 2 * m + m = 3 * m by ring, toPoly_take_drop (t.drop (3 * m)) m, List.drop_drop, show 3 * m + m = 4 * m by ring]
  simp
  ring

/-- for fixed challenges the prover's random values and the simulator's correspond, one to one, up to the one random value that the prover
draws and does not use -/
theorem view_bijective {rootM root : F} {κ : Nat → F} {cs : CS F} (D : Domain cs.gates.length rootM root κ) (hn : 1 < cs.gates.length)
    (s : F) (hs0 : s ≠ 0) (hsn : s ^ cs.gates.length ≠ 1) (wit online : List F) (beta gamma alpha zeta : F)
    (hz : zeta ^ cs.gates.length ≠ 1) (h1 : s ≠ zeta) (h2 : s ≠ root * zeta) :
    Function.Bijective fun r : Rand F => (view s root κ cs wit online beta gamma alpha zeta r, r.t 4) := by
  have hroot1 : root ≠ 1 := by
    intro h
    have := D.primN
    rw [h] at this
    have h' := this.dvd_of_pow_eq_one 1 (by simp)
    have := Nat.le_of_dvd one_pos h'
    omega
  have hroot0 : root ≠ 0 := D.primN.ne_zero (by omega)
  have hpow : ∀ y : F, (root * y) ^ cs.gates.length = y ^ cs.gates.length := fun y => by
    rw [mul_pow, D.primN.pow_eq_one, one_mul]
  have hw : ∀ j : Nat, Function.Bijective fun (b : Fin 2 → F) (i : Fin 2) =>
      (hidden root cs.gates.length (wireColumn cs wit j) (List.ofFn b)).eval (![s, zeta] i) := fun j => by
    refine hidden_bijective root _ _ ![s, zeta] ?_ ?_
    · intro a b hab
      fin_cases a <;> fin_cases b <;> simp at hab ⊢
      · exact h1 hab
      · exact h1 hab.symm
    · intro i
      fin_cases i <;> simp [hsn, hz]
  have hzz : Function.Bijective fun (b : Fin 3 → F) (i : Fin 3) =>
      (hidden root cs.gates.length (accColumn root κ cs wit beta gamma) (List.ofFn b)).eval (![s, root * s, root * zeta] i) := by
    refine hidden_bijective root _ _ ![s, root * s, root * zeta] ?_ ?_
    · have e1 : s ≠ root * s := fun h => hroot1 (mul_right_cancel₀ hs0 (by rw [one_mul]; exact h.symm))
      have e2 : root * s ≠ root * zeta := fun h => h1 (mul_left_cancel₀ hroot0 h)
      intro a b hab
      fin_cases a <;> fin_cases b <;> simp at hab ⊢
      · exact e1 hab
      · exact h2 hab
      · exact e1 hab.symm
      · exact e2 (by rw [hab.resolve_right hroot0])
      · exact h2 hab.symm
      · exact e2 (by rw [hab.resolve_right hroot0])
    · intro i
      fin_cases i <;> simp [hpow, hsn, hz]
  have hsm : s ^ (cs.gates.length + 2) ≠ 0 := pow_ne_zero _ hs0
  constructor
  · rintro ⟨rw, rz, rt⟩ ⟨rw', rz', rt'⟩ h
    simp only [view, Prod.mk.injEq, View.mk.injEq] at h
    obtain ⟨⟨e1, e2, e3, e4, e5, e6⟩, e7⟩ := h
    have f1 : rw = rw' := by
      funext j
      apply (hw j).1
      funext i
      fin_cases i
      · have := congrFun e1 j
        simp only [wireP_fin] at this
        exact this
      · have := congrFun e2 j
        simp only [wireP_fin] at this
        exact this
    have f2 : rz = rz' := by
      apply hzz.1
      funext i
      fin_cases i
      · exact e3
      · exact e4
      · exact e5
    subst f1 f2
    have hq : quotP root κ cs wit online ⟨rw, rz, rt⟩ beta gamma alpha = quotP root κ cs wit online ⟨rw, rz, rt'⟩ beta gamma alpha := rfl
    have g : ∀ i : Fin 4, _ := congrFun e6
    have g0 := g 0
    have g1 := g 1
    have g2 := g 2
    have g3 := g 3
    simp [partsP, partPolys_five, hq] at g0 g1 g2 g3
    have k0 : rt 0 = rt' 0 := g0.resolve_right hs0
    rw [k0] at g1
    have k1 : rt 1 = rt' 1 := by simpa [hs0] using g1
    rw [k1] at g2
    have k2 : rt 2 = rt' 2 := by simpa [hs0] using g2
    rw [k2] at g3
    have k3 : rt 3 = rt' 3 := by simpa [hs0] using g3
    congr 1
    funext i
    fin_cases i
    · exact k0
    · exact k1
    · exact k2
    · exact k3
    · exact e7
  · rintro ⟨⟨ws, wz, zs, zos, zoz, t⟩, t4⟩
    choose rw hrw using fun j : Fin 5 => (hw j).2 ![ws j, wz j]
    obtain ⟨rz, hrz⟩ := hzz.2 ![zs, zos, zoz]
    set q := quotP root κ cs wit online ⟨rw, rz, fun _ => 0⟩ beta gamma alpha with hq
    set m := cs.gates.length + 2 with hm
    set a := (t 0 - (toPoly (q.take m)).eval s) / s ^ m with ha
    set b := (t 1 - (toPoly ((q.drop m).take m)).eval s + a) / s ^ m with hb
    set c := (t 2 - (toPoly ((q.drop (2 * m)).take m)).eval s + b) / s ^ m with hc
    set d := (t 3 - (toPoly ((q.drop (3 * m)).take m)).eval s + c) / s ^ m with hd
    refine ⟨⟨rw, rz, ![a, b, c, d, t4]⟩, ?_⟩
    simp only [view, Prod.mk.injEq, View.mk.injEq]
    refine ⟨⟨?_, ?_, ?_, ?_, ?_, ?_⟩, rfl⟩
    · funext j
      rw [wireP_fin]
      exact congrFun (hrw j) 0
    · funext j
      rw [wireP_fin]
      exact congrFun (hrw j) 1
    · exact congrFun hrz 0
    · exact congrFun hrz 1
    · exact congrFun hrz 2
    · have hq' : quotP root κ cs wit online ⟨rw, rz, ![a, b, c, d, t4]⟩ beta gamma alpha = q := rfl
      funext i
      have hof : List.ofFn ![a, b, c, d, t4] = [a, b, c, d, t4] := by simp
      simp only [partsP, hq', hof, partPolys_five, ← hm]
      have ka := div_mul_cancel₀ (t 0 - (toPoly (q.take m)).eval s) hsm
      have kb := div_mul_cancel₀ (t 1 - (toPoly ((q.drop m).take m)).eval s + a) hsm
      have kc := div_mul_cancel₀ (t 2 - (toPoly ((q.drop (2 * m)).take m)).eval s + b) hsm
      have kd := div_mul_cancel₀ (t 3 - (toPoly ((q.drop (3 * m)).take m)).eval s + c) hsm
      rw [← ha] at ka
      rw [← hb] at kb
      rw [← hc] at kc
      rw [← hd] at kd
      clear_value a b c d
      fin_cases i
      · simp [ka]
      · simp [kb]; ring
      · simp [kc]; ring
      · simp [kd]; ring

/-! ### The prover and the simulator -/

omit [DecidableEq F] in
theorem ext5_of_lt (f : Nat → F) (j : Nat) (hj : j < 5) : ext5 (fun i : Fin 5 => f i) j = f j := by
  rw [ext5, dif_pos hj]

omit [DecidableEq F] in
theorem ext5_range (f : Nat → F) : (List.range 5).map (ext5 fun i : Fin 5 => f i) = (List.range 5).map f :=
  List.map_congr_left fun j hj => ext5_of_lt f j (List.mem_range.1 hj)

omit [DecidableEq F] in
theorem numer_ext5 (beta gamma alpha : F) (q k σ f : Nat → F) (x z zNext l1 qb pi : F) :
    numer beta gamma alpha q (ext5 fun i : Fin 5 => f i) k σ x z zNext l1 qb pi = numer beta gamma alpha q f k σ x z zNext l1 qb pi := by
  have h := ext5_of_lt f
  simp only [numer, gateForm, permForm, Finset.prod_range_succ, Finset.prod_range_zero, h 0 (by omega), h 1 (by omega), h 2 (by omega),
    h 3 (by omega), h 4 (by omega)]

omit [DecidableEq F] in
theorem rEvalForm_ext5 (f σ : Nat → F) (zEv : F) (ch : Challenges F) (piEv l1 : F) :
    rEvalForm (ext5 fun i : Fin 5 => f i) σ zEv ch piEv l1 = rEvalForm f σ zEv ch piEv l1 := by
  have h := ext5_of_lt f
  simp only [rEvalForm, h 0 (by omega), h 1 (by omega), h 2 (by omega), h 3 (by omega), h 4 (by omega)]

omit [DecidableEq F] in
theorem cmRForm_ext5 (vk : VK G1 F) (s4 : G1) (f : Nat → F) (sEv : List F) (zEv : F) (ch : Challenges F) (cmZ : G1) (cmT : List G1) :
    cmRForm vk s4 (ext5 fun i : Fin 5 => f i) sEv zEv ch cmZ cmT = cmRForm vk s4 f sEv zEv ch cmZ cmT := by
  have h := ext5_of_lt f
  have hm : multOf (ext5 fun i : Fin 5 => f i) = multOf f := by
    simp only [multOf, h 0 (by omega), h 1 (by omega), h 2 (by omega), h 3 (by omega), h 4 (by omega)]
  unfold cmRForm
  rw [ext5_range, hm]

/-- the last part of the quotient is the one that the simulator takes -/
theorem parts_eq {rootM root : F} {κ : Nat → F} {cs : CS F} (hwf : WF cs) (D : Domain cs.gates.length rootM root κ)
    (s : F) (hs0 : s ≠ 0) (hsn : s ^ cs.gates.length ≠ 1)
    (wit online : List F) (hsat : Spec.Sat cs (fun v => wit[v]?.getD 0) online) (r : Rand F) (beta gamma alpha zeta : F)
    (hden : ∀ i < cs.gates.length - 1, zDen root κ (wireVal cs wit) (sigma cs) cs.gates.length beta gamma i ≠ 0) :
    (partsP root κ cs wit online r beta gamma alpha).map (fun p => p.eval s) =
      simParts s root κ cs online beta gamma alpha (view s root κ cs wit online beta gamma alpha zeta r) := by
  generalize hx : view s root κ cs wit online beta gamma alpha zeta r = x
  unfold simParts
  extract_lets tS m
  have hm : m ≠ 0 := pow_ne_zero _ hs0
  have hT : tS = (toPoly (quotP root κ cs wit online r beta gamma alpha)).eval s := by
    have h := quotP_spec hwf D wit online hsat r beta gamma alpha hden
    have h' := congrArg (Polynomial.eval s) h
    rw [numerP, numerPoly_eval, eval_mul, eval_sub, eval_pow, eval_X, eval_one] at h'
    have hx : numer beta gamma alpha (fun j => (selPoly root cs j).eval s) (ext5 x.ws) κ (fun j => (sigmaPoly root κ cs j).eval s) s x.zs x.zos
        (∑ i ∈ Finset.range cs.gates.length, s ^ i) ((boolPoly root cs).eval s)
        ((toPoly (piInterp root cs.gates.length cs.pubCons online)).eval s) =
        (s ^ cs.gates.length - 1) * (toPoly (quotP root κ cs wit online r beta gamma alpha)).eval s := by
      rw [← h', ← hx]
      exact numer_ext5 beta gamma alpha _ κ _ (fun j => (wireP root cs wit r j).eval s) s _ _ _ _ _
    show _ / _ = _
    rw [hx, mul_div_cancel_left₀ _ (sub_ne_zero.2 hsn)]
  have hof : List.ofFn r.t = [r.t 0, r.t 1, r.t 2, r.t 3, r.t 4] := by simp
  have hp := partPolys_five (quotP root κ cs wit online r beta gamma alpha) (cs.gates.length + 2) (r.t 0) (r.t 1) (r.t 2) (r.t 3) (r.t 4)
  rw [← hof] at hp
  change partsP root κ cs wit online r beta gamma alpha = _ at hp
  have hsum := parts_sum (quotP root κ cs wit online r beta gamma alpha) (cs.gates.length + 2) (r.t 0) (r.t 1) (r.t 2) (r.t 3) s
  rw [← hT] at hsum
  have hxt : ∀ i : Fin 4, x.t i = ((partsP root κ cs wit online r beta gamma alpha)[(i : Nat)]?.getD 0).eval s := fun _ => by rw [← hx]; rfl
  generalize partsP root κ cs wit online r beta gamma alpha = parts at hp hxt ⊢
  revert hp hsum
  generalize toPoly ((quotP root κ cs wit online r beta gamma alpha).drop (4 * (cs.gates.length + 2))) - C (r.t 3) = p4
  generalize toPoly (((quotP root κ cs wit online r beta gamma alpha).drop (3 * (cs.gates.length + 2))).take (cs.gates.length + 2)) +
    C (r.t 3) * X ^ (cs.gates.length + 2) - C (r.t 2) = p3
  generalize toPoly (((quotP root κ cs wit online r beta gamma alpha).drop (2 * (cs.gates.length + 2))).take (cs.gates.length + 2)) +
    C (r.t 2) * X ^ (cs.gates.length + 2) - C (r.t 1) = p2
  generalize toPoly (((quotP root κ cs wit online r beta gamma alpha).drop (cs.gates.length + 2)).take (cs.gates.length + 2)) +
    C (r.t 1) * X ^ (cs.gates.length + 2) - C (r.t 0) = p1
  generalize toPoly ((quotP root κ cs wit online r beta gamma alpha).take (cs.gates.length + 2)) + C (r.t 0) * X ^ (cs.gates.length + 2) = p0
  intro hsum hp
  subst hp
  have h0 : x.t 0 = p0.eval s := hxt 0
  have h1 : x.t 1 = p1.eval s := hxt 1
  have h2 : x.t 2 = p2.eval s := hxt 2
  have h3 : x.t 3 = p3.eval s := hxt 3
  have h4 : p4.eval s = (tS - (x.t 0 + m * x.t 1 + m ^ 2 * x.t 2 + m ^ 3 * x.t 3)) / m ^ 4 := by
    rw [eq_div_iff (pow_ne_zero 4 hm), h0, h1, h2, h3, ← hsum]
    ring
  rw [← h4, h0, h1, h2, h3]
  rfl

theorem coins_lengths (r : Rand F) : r.coins.w.length = 5 ∧ (∀ b ∈ r.coins.w, b.length = 2) ∧ r.coins.z.length = 3 ∧ r.coins.t.length = 5 := by
  refine ⟨by simp [Rand.coins], fun b hb => ?_, by simp [Rand.coins], by simp [Rand.coins]⟩
  obtain ⟨j, rfl⟩ := (List.mem_ofFn' _ _).1 hb
  simp

/-- the simulator, step by step -/
theorem simulate_run {n : Nat} (O : Oracle F G1 n) (g : G1) (s : F) (tr : Tr F G1) (rootM root : F) (κ : Nat → F) (cs : CS F) (online : List F)
    (x : View F) (cmW cmT : List G1) (b c a e u : F × Tr F G1) (wEv sEv : List F)
    (hcmW : (List.range 5).map (fun j => ext5 x.ws j • g) = cmW)
    (hb : challenge O (initPlonk tr (pkOf s g rootM root κ cs).vk online ++ cmW.map .commitment) "beta" = b)
    (hc : challenge O b.2 "gamma" = c) (ha : challenge O (appendCommitment c.2 (x.zs • g)) "alpha" = a)
    (hcmT : (simParts s root κ cs online b.1 c.1 a.1 x).map (· • g) = cmT)
    (he : challenge O (a.2 ++ cmT.map .commitment) "zeta" = e) (hwEv : (List.range 5).map (ext5 x.wz) = wEv)
    (hsEv : (List.range 4).map (fun j => (sigmaPoly root κ cs j).eval e.1) = sEv)
    (hu : challenge O (e.2 ++ (wEv ++ sEv).map .field ++ [.field x.zoz]) "u" = u) :
    let ch : Challenges F := ⟨b.1, c.1, a.1, e.1, u.1⟩
    let o := batchLoop (O.draw (initBatchEval u.2 (cs.gates.length + 2) e.1 ++ [.challenge "alpha"]) 0)
      (wEv ++ sEv ++ [rEvalForm (ext5 x.wz) (fun j => (sigmaPoly root κ cs j).eval e.1) x.zoz ch
        ((toPoly (piInterp root cs.gates.length cs.pubCons online)).eval e.1) (∑ i ∈ Finset.range cs.gates.length, e.1 ^ i)])
      (cmW ++ (pkOf s g rootM root κ cs).vk.cmS.take 4 ++
        [cmRForm (pkOf s g rootM root κ cs).vk ((sigmaPoly root κ cs 4).eval s • g) (ext5 x.wz) sEv x.zoz ch (x.zs • g) cmT]) 1 (0, 0)
    simulate O g s tr rootM root κ cs online x = Proof.mk cmW cmT (x.zs • g) wEv x.zoz sEv ((s - e.1)⁻¹ • (o.1 - o.2 • g))
      ((s - root * e.1)⁻¹ • (x.zs • g - x.zoz • g)) := by
  subst hcmW hb hc ha hcmT he hwEv hsEv hu
  rfl

/-- the challenges of a simulated proof -/
theorem simulate_challenges {n : Nat} (O : Oracle F G1 n) (g : G1) (s : F) (tr : Tr F G1) (rootM root : F) (κ : Nat → F) (cs : CS F)
    (online : List F) (x : View F) (cmW cmT : List G1) (b c a e : F × Tr F G1)
    (hcmW : (List.range 5).map (fun j => ext5 x.ws j • g) = cmW)
    (hb : challenge O (initPlonk tr (pkOf s g rootM root κ cs).vk online ++ cmW.map .commitment) "beta" = b)
    (hc : challenge O b.2 "gamma" = c) (ha : challenge O (appendCommitment c.2 (x.zs • g)) "alpha" = a)
    (hcmT : (simParts s root κ cs online b.1 c.1 a.1 x).map (· • g) = cmT)
    (he : challenge O (a.2 ++ cmT.map .commitment) "zeta" = e) :
    let ch := (computeChallenges O (initPlonk tr (pkOf s g rootM root κ cs).vk online) (simulate O g s tr rootM root κ cs online x)).1
    ch.beta = b.1 ∧ ch.gamma = c.1 ∧ ch.alpha = a.1 ∧ ch.zeta = e.1 := by
  subst hcmW hb hc ha hcmT he
  exact ⟨rfl, rfl, rfl, rfl⟩

/-- an honest proof is the simulated one for the values of the hidden polynomials -/
theorem prover_eq_simulate (P : Pairing F G1 G2 Gt) (hP : NonDegenerate P) (msm : List F → List G1 → Res G1) (hm : MsmCorrect msm) (d : Nat)
    (s : F) (hs0 : s ≠ 0) (lag : Option (Params G1 G2)) (κ : Nat → F) (rootM root : F) (cs : CS F) (hwf : WF cs)
    (D : Domain cs.gates.length rootM root κ) (hsn : s ^ cs.gates.length ≠ 1) (hd : cs.gates.length + 2 ≤ d)
    (hlag : LagrangeOk P s root cs.gates.length lag)
    (O : Oracle F G1 cs.gates.length) (tr : Tr F G1) (wit : List F) (hwit : wit.length = cs.numVars) (online : List F)
    (honline : cs.pubVars.map (fun v => wit[v]?.getD 0) = online) (hsat : Spec.Sat cs (fun v => wit[v]?.getD 0) online)
    (r : Rand F)
    (cmW cmT : List G1) (b c a e : F × Tr F G1)
    (hcmW : (List.range 5).map (fun j => (wireP root cs wit r j).eval s • P.base1) = cmW)
    (hb : challenge O (initPlonk tr (pkOf s P.base1 rootM root κ cs).vk online ++ cmW.map .commitment) "beta" = b)
    (hc : challenge O b.2 "gamma" = c)
    (hden : ∀ i < cs.gates.length - 1, zDen root κ (wireVal cs wit) (sigma cs) cs.gates.length b.1 c.1 i ≠ 0)
    (ha : challenge O (appendCommitment c.2 ((accP root κ cs wit r b.1 c.1).eval s • P.base1)) "alpha" = a)
    (hcmT : (partsP root κ cs wit online r b.1 c.1 a.1).map (fun p => p.eval s • P.base1) = cmT)
    (he : challenge O (a.2 ++ cmT.map .commitment) "zeta" = e) (h1 : s ≠ e.1) (h2 : s ≠ root * e.1) :
    prover O msm (setup P d s) lag tr false cs (pkOf s P.base1 rootM root κ cs) wit r.coins =
        .ok (simulate O P.base1 s tr rootM root κ cs online (view s root κ cs wit online b.1 c.1 a.1 e.1 r)) ∧
      (let ch := (computeChallenges O (initPlonk tr (pkOf s P.base1 rootM root κ cs).vk online)
        (simulate O P.base1 s tr rootM root κ cs online (view s root κ cs wit online b.1 c.1 a.1 e.1 r))).1
       ch.beta = b.1 ∧ ch.gamma = c.1 ∧ ch.alpha = a.1 ∧ ch.zeta = e.1) := by
  set x := view s root κ cs wit online b.1 c.1 a.1 e.1 r with hx
  have hparts := parts_eq hwf D s hs0 hsn wit online hsat r b.1 c.1 a.1 e.1 hden
  have hxW : (List.range 5).map (fun j => ext5 x.ws j • P.base1) = cmW := by
    rw [← hcmW]
    refine List.map_congr_left fun j hj => ?_
    rw [show ext5 x.ws j = (wireP root cs wit r j).eval s from ext5_of_lt (fun j => (wireP root cs wit r j).eval s) j (List.mem_range.1 hj)]
  have hxT : (simParts s root κ cs online b.1 c.1 a.1 x).map (· • P.base1) = cmT := by
    rw [← hparts, ← hcmT, List.map_map]
    rfl
  have hxE : (List.range 5).map (ext5 x.wz) = (List.range 5).map fun j => (wireP root cs wit r j).eval e.1 :=
    ext5_range fun j => (wireP root cs wit r j).eval e.1
  refine ⟨?_, simulate_challenges O P.base1 s tr rootM root κ cs online x cmW cmT b c a e hxW hb hc ha hxT he⟩
  obtain ⟨l1, l2, l3, l4⟩ := coins_lengths r
  generalize hu : challenge O (e.2 ++ ((List.range 5).map (fun j => (wireP root cs wit r j).eval e.1) ++
      (List.range 4).map fun j => (sigmaPoly root κ cs j).eval e.1).map .field ++ [.field ((accP root κ cs wit r b.1 c.1).eval (root * e.1))]) "u" = u
  obtain ⟨pw, zw, hp, hpw, hzw⟩ := prover_describe P hP msm hm d s lag κ rootM root cs hwf D hd hlag O tr wit hwit online honline r.coins l1 l2 l3 l4
    (wireP root cs wit r) (fun _ => rfl) cmW hcmW b c hb hc hden (accP root κ cs wit r b.1 c.1) rfl a ha
    (quotP root κ cs wit online r b.1 c.1 a.1) (quotP_normal _ _ _ _ _ _ _ _ _) (quotP_spec hwf D wit online hsat r b.1 c.1 a.1 hden) cmT hcmT e he u hu
  have hsim := simulate_run O P.base1 s tr rootM root κ cs online x cmW cmT b c a e u _ _ hxW hb hc ha hxT he hxE rfl hu
  simp only at hsim
  rw [hp, hsim]
  congr 1
  have e1 : ext5 x.wz = ext5 fun j : Fin 5 => (wireP root cs wit r j).eval e.1 := rfl
  rw [e1, rEvalForm_ext5 (fun j => (wireP root cs wit r j).eval e.1), cmRForm_ext5 _ _ (fun j => (wireP root cs wit r j).eval e.1)]
  congr 1
  · rw [eq_comm, inv_smul_eq_iff₀ (sub_ne_zero.2 h1), hpw]
    rfl
  · rw [eq_comm, inv_smul_eq_iff₀ (sub_ne_zero.2 h2), hzw]
    rfl

/-- For a proof with good challenges: the prover makes it with given random values exactly if the simulator makes it with the corresponding
values of the hidden polynomials. -/
theorem prover_iff_simulate (P : Pairing F G1 G2 Gt) (hP : NonDegenerate P) (msm : List F → List G1 → Res G1) (hm : MsmCorrect msm) (d : Nat)
    (s : F) (hs0 : s ≠ 0) (lag : Option (Params G1 G2)) (κ : Nat → F) (rootM root : F) (cs : CS F) (hwf : WF cs)
    (D : Domain cs.gates.length rootM root κ) (hsn : s ^ cs.gates.length ≠ 1) (hd : cs.gates.length + 2 ≤ d)
    (hlag : LagrangeOk P s root cs.gates.length lag)
    (O : Oracle F G1 cs.gates.length) (tr : Tr F G1) (wit : List F) (hwit : wit.length = cs.numVars) (online : List F)
    (honline : cs.pubVars.map (fun v => wit[v]?.getD 0) = online) (hsat : Spec.Sat cs (fun v => wit[v]?.getD 0) online)
    (π : Proof G1 F)
    (hgood : GoodFor O P.base1 s tr rootM root κ cs online wit π) (r : Rand F) :
    prover O msm (setup P d s) lag tr false cs (pkOf s P.base1 rootM root κ cs) wit r.coins = .ok π ↔
      (let ch := (computeChallenges O (initPlonk tr (pkOf s P.base1 rootM root κ cs).vk online) π).1
       simulate O P.base1 s tr rootM root κ cs online (view s root κ cs wit online ch.beta ch.gamma ch.alpha ch.zeta r) = π) := by
  obtain ⟨l1, l2, l3, l4⟩ := coins_lengths r
  generalize hcmW : (List.range 5).map (fun j => (wireP root cs wit r j).eval s • P.base1) = cmW
  generalize hb : challenge O (initPlonk tr (pkOf s P.base1 rootM root κ cs).vk online ++ cmW.map .commitment) "beta" = b
  generalize hc : challenge O b.2 "gamma" = c
  generalize ha : challenge O (appendCommitment c.2 ((accP root κ cs wit r b.1 c.1).eval s • P.base1)) "alpha" = a
  generalize hcmT : (partsP root κ cs wit online r b.1 c.1 a.1).map (fun p => p.eval s • P.base1) = cmT
  generalize he : challenge O (a.2 ++ cmT.map .commitment) "zeta" = e
  obtain ⟨g1, g2, g3⟩ := hgood
  constructor
  · intro h
    by_cases hden : ∀ i < cs.gates.length - 1, zDen root κ (wireVal cs wit) (sigma cs) cs.gates.length b.1 c.1 i ≠ 0
    swap
    · push Not at hden
      rw [prover_describe_stop P msm hm d s lag κ rootM root cs hwf D hd hlag O tr wit hwit online honline r.coins l1 l2 (wireP root cs wit r)
        (fun _ => rfl) cmW hcmW b c hb hc hden] at h
      exact absurd h (by simp)
    generalize hu : challenge O (e.2 ++ ((List.range 5).map (fun j => (wireP root cs wit r j).eval e.1) ++
        (List.range 4).map fun j => (sigmaPoly root κ cs j).eval e.1).map .field ++ [.field ((accP root κ cs wit r b.1 c.1).eval (root * e.1))]) "u" = u
    obtain ⟨pw, zw, hp, -, -⟩ := prover_describe P hP msm hm d s lag κ rootM root cs hwf D hd hlag O tr wit hwit online honline r.coins l1 l2 l3 l4
      (wireP root cs wit r) (fun _ => rfl) cmW hcmW b c hb hc hden (accP root κ cs wit r b.1 c.1) rfl a ha
      (quotP root κ cs wit online r b.1 c.1 a.1) (quotP_normal _ _ _ _ _ _ _ _ _) (quotP_spec hwf D wit online hsat r b.1 c.1 a.1 hden) cmT hcmT e he u hu
    have hπ := Res.ok.inj (hp.symm.trans h)
    have hch : (computeChallenges O (initPlonk tr (pkOf s P.base1 rootM root κ cs).vk online) π).1 = ⟨b.1, c.1, a.1, e.1, u.1⟩ := by
      rw [← hπ]
      subst hb hc ha he hu
      rfl
    rw [hch] at g2 g3 ⊢
    obtain ⟨h', -⟩ := prover_eq_simulate P hP msm hm d s hs0 lag κ rootM root cs hwf D hsn hd hlag O tr wit hwit online honline hsat r cmW cmT b c a e
      hcmW hb hc hden ha hcmT he g2 g3
    exact Res.ok.inj (h'.symm.trans h)
  · intro h
    simp only at h
    generalize hch : (computeChallenges O (initPlonk tr (pkOf s P.base1 rootM root κ cs).vk online) π).1 = ch at h g1 g2 g3
    set x := view s root κ cs wit online ch.beta ch.gamma ch.alpha ch.zeta r with hx
    have hxW : (List.range 5).map (fun j => ext5 x.ws j • P.base1) = cmW := by
      rw [← hcmW]
      refine List.map_congr_left fun j hj => ?_
      rw [show ext5 x.ws j = (wireP root cs wit r j).eval s from ext5_of_lt (fun j => (wireP root cs wit r j).eval s) j (List.mem_range.1 hj)]
    rw [← h] at hch
    obtain ⟨k1, k2, -, -⟩ := simulate_challenges O P.base1 s tr rootM root κ cs online x cmW _ b c _ _ hxW hb hc rfl rfl rfl
    rw [hch] at k1 k2
    have hxZ : x.zs = (accP root κ cs wit r b.1 c.1).eval s := by rw [← k1, ← k2]; rfl
    have ha' : challenge O (appendCommitment c.2 (x.zs • P.base1)) "alpha" = a := by rw [hxZ]; exact ha
    obtain ⟨-, -, k3, -⟩ := simulate_challenges O P.base1 s tr rootM root κ cs online x cmW _ b c a _ hxW hb hc ha' rfl rfl
    rw [hch] at k3
    have hden : ∀ i < cs.gates.length - 1, zDen root κ (wireVal cs wit) (sigma cs) cs.gates.length b.1 c.1 i ≠ 0 := by
      rw [← k1, ← k2]; exact g1
    have hparts := parts_eq hwf D s hs0 hsn wit online hsat r b.1 c.1 a.1 ch.zeta hden
    have hxT : (simParts s root κ cs online b.1 c.1 a.1 x).map (· • P.base1) = cmT := by
      rw [hx, k1, k2, k3, ← hparts, ← hcmT, List.map_map]
      rfl
    obtain ⟨-, -, -, k4⟩ := simulate_challenges O P.base1 s tr rootM root κ cs online x cmW cmT b c a e hxW hb hc ha' hxT he
    rw [hch] at k4
    rw [k4] at g2 g3
    obtain ⟨h', -⟩ := prover_eq_simulate P hP msm hm d s hs0 lag κ rootM root cs hwf D hsn hd hlag O tr wit hwit online honline hsat r cmW cmT b c a e
      hcmW hb hc hden ha hcmT he g2 g3
    rw [h', ← h, hx, k1, k2, k3, k4]

/-! ### C89 -/

/-- C89: for every proof `π` whose challenges are good for the witness, the random values with which the prover makes `π` from the witness
correspond one to one to the random values with which the simulator makes `π` without it, up to the one value that the prover draws and
does not use. -/
theorem C89_zero_knowledge (P : Pairing F G1 G2 Gt) (hP : NonDegenerate P) (msm : List F → List G1 → Res G1) (hm : MsmCorrect msm) (d : Nat)
    (s : F) (hs0 : s ≠ 0) (lag : Option (Params G1 G2)) (κ : Nat → F) (rootM root : F) (cs : CS F) (hwf : WF cs)
    (D : Domain cs.gates.length rootM root κ) (hsn : s ^ cs.gates.length ≠ 1) (hd : cs.gates.length + 2 ≤ d)
    (hlag : LagrangeOk P s root cs.gates.length lag)
    (O : Oracle F G1 cs.gates.length) (tr : Tr F G1) (wit : List F) (hwit : wit.length = cs.numVars) (online : List F)
    (honline : cs.pubVars.map (fun v => wit[v]?.getD 0) = online) (hsat : Spec.Sat cs (fun v => wit[v]?.getD 0) online)
    (hn : 1 < cs.gates.length) (π : Proof G1 F) (hgood : GoodFor O P.base1 s tr rootM root κ cs online wit π) :
    Nonempty ({r : Rand F // prover O msm (setup P d s) lag tr false cs (pkOf s P.base1 rootM root κ cs) wit r.coins = .ok π} ≃
      {x : View F // simulate O P.base1 s tr rootM root κ cs online x = π} × F) := by
  have hbij := view_bijective D hn s hs0 hsn wit online
    (computeChallenges O (initPlonk tr (pkOf s P.base1 rootM root κ cs).vk online) π).1.beta
    (computeChallenges O (initPlonk tr (pkOf s P.base1 rootM root κ cs).vk online) π).1.gamma
    (computeChallenges O (initPlonk tr (pkOf s P.base1 rootM root κ cs).vk online) π).1.alpha
    (computeChallenges O (initPlonk tr (pkOf s P.base1 rootM root κ cs).vk online) π).1.zeta (challenge_pow O _ _) hgood.2.1 hgood.2.2
  refine ⟨((Equiv.ofBijective _ hbij).subtypeEquiv (q := fun p => simulate O P.base1 s tr rootM root κ cs online p.1 = π) fun r => ?_).trans
    (Equiv.prodSubtypeFstEquivSubtypeProd (p := fun x => simulate O P.base1 s tr rootM root κ cs online x = π))⟩
  exact prover_iff_simulate P hP msm hm d s hs0 lag κ rootM root cs hwf D hsn hd hlag O tr wit hwit online honline hsat π hgood r

/-- C89, counted: of all random values, the prover makes `π` with as large a part as the simulator does. -/
theorem C89_count (P : Pairing F G1 G2 Gt) (hP : NonDegenerate P) (msm : List F → List G1 → Res G1) (hm : MsmCorrect msm) (d : Nat)
    (s : F) (hs0 : s ≠ 0) (lag : Option (Params G1 G2)) (rootOf : Nat → Res (Option F)) (κ : Nat → F) (rootM root : F) (cs : CS F) (hwf : WF cs)
    (D : Domain cs.gates.length rootM root κ) (hsn : s ^ cs.gates.length ≠ 1) (hn : 1 < cs.gates.length) (hd : cs.gates.length + 2 ≤ d)
    (hroot : rootOf (quotSize cs.gates.length) = .ok (some rootM)) (hlag : LagrangeOk P s root cs.gates.length lag)
    (pk : PK G1 F) (hpk : indexer msm (setup P d s) lag rootOf ((List.range 5).map κ) cs = .ok pk)
    (O : Oracle F G1 cs.gates.length) (tr : Tr F G1) (online : List F)
    (wit : List F) (hwit : wit.length = cs.numVars) (honline : cs.pubVars.map (fun v => wit[v]?.getD 0) = online)
    (hsat : Spec.Sat cs (fun v => wit[v]?.getD 0) online) (π : Proof G1 F) (hgood : GoodFor O P.base1 s tr rootM root κ cs online wit π) :
    Nat.card {r : Rand F // prover O msm (setup P d s) lag tr false cs pk wit r.coins = .ok π} =
      Nat.card {x : View F // simulate O P.base1 s tr rootM root κ cs online x = π} * Nat.card F := by
  rw [C60_indexer P msm hm d s lag rootOf κ rootM root cs hwf D (by omega) hroot hlag] at hpk
  obtain rfl := Res.ok.inj hpk
  obtain ⟨E⟩ := C89_zero_knowledge P hP msm hm d s hs0 lag κ rootM root cs hwf D hsn hd hlag O tr wit hwit online honline hsat hn π hgood
  rw [Nat.card_congr E, Nat.card_prod]

/-- C89: two witnesses for the same public values cannot be told apart: every proof with good challenges comes from both with the same
number of random values. -/
theorem C89_witness_indistinguishable (P : Pairing F G1 G2 Gt) (hP : NonDegenerate P) (msm : List F → List G1 → Res G1) (hm : MsmCorrect msm) (d : Nat)
    (s : F) (hs0 : s ≠ 0) (lag : Option (Params G1 G2)) (rootOf : Nat → Res (Option F)) (κ : Nat → F) (rootM root : F) (cs : CS F) (hwf : WF cs)
    (D : Domain cs.gates.length rootM root κ) (hsn : s ^ cs.gates.length ≠ 1) (hn : 1 < cs.gates.length) (hd : cs.gates.length + 2 ≤ d)
    (hroot : rootOf (quotSize cs.gates.length) = .ok (some rootM)) (hlag : LagrangeOk P s root cs.gates.length lag)
    (pk : PK G1 F) (hpk : indexer msm (setup P d s) lag rootOf ((List.range 5).map κ) cs = .ok pk)
    (O : Oracle F G1 cs.gates.length) (tr : Tr F G1) (online : List F)
    (wit wit' : List F) (hwit : wit.length = cs.numVars) (hwit' : wit'.length = cs.numVars)
    (honline : cs.pubVars.map (fun v => wit[v]?.getD 0) = online) (honline' : cs.pubVars.map (fun v => wit'[v]?.getD 0) = online)
    (hsat : Spec.Sat cs (fun v => wit[v]?.getD 0) online) (hsat' : Spec.Sat cs (fun v => wit'[v]?.getD 0) online) (π : Proof G1 F)
    (hgood : GoodFor O P.base1 s tr rootM root κ cs online wit π) (hgood' : GoodFor O P.base1 s tr rootM root κ cs online wit' π) :
    Nonempty ({r : Rand F // prover O msm (setup P d s) lag tr false cs pk wit r.coins = .ok π} ≃
      {r : Rand F // prover O msm (setup P d s) lag tr false cs pk wit' r.coins = .ok π}) := by
  rw [C60_indexer P msm hm d s lag rootOf κ rootM root cs hwf D (by omega) hroot hlag] at hpk
  obtain rfl := Res.ok.inj hpk
  obtain ⟨E⟩ := C89_zero_knowledge P hP msm hm d s hs0 lag κ rootM root cs hwf D hsn hd hlag O tr wit hwit online honline hsat hn π hgood
  obtain ⟨E'⟩ := C89_zero_knowledge P hP msm hm d s hs0 lag κ rootM root cs hwf D hsn hd hlag O tr wit' hwit' online honline' hsat' hn π hgood'
  exact ⟨E.trans E'.symm⟩

/-- C89: the verifier accepts what the simulator makes, for any public values, whether a witness exists or not; whoever knows the secret of
the parameters can therefore prove anything. -/
theorem C89_simulated_accepted (P : Pairing F G1 G2 Gt) (hP : NonDegenerate P) (msm : List F → List G1 → Res G1) (hm : MsmCorrect msm) (d : Nat)
    (s : F) (lag : Option (Params G1 G2)) (rootOf : Nat → Res (Option F)) (κ : Nat → F) (rootM root : F) (cs : CS F) (hwf : WF cs)
    (D : Domain cs.gates.length rootM root κ) (hd : cs.gates.length + 2 ≤ d)
    (hroot : rootOf (quotSize cs.gates.length) = .ok (some rootM)) (hlag : LagrangeOk P s root cs.gates.length lag)
    (pk : PK G1 F) (hpk : indexer msm (setup P d s) lag rootOf ((List.range 5).map κ) cs = .ok pk)
    (O : Oracle F G1 cs.gates.length) (tr : Tr F G1) (online : List F) (x : View F)
    (h1 : s ≠ (computeChallenges O (initPlonk tr pk.vk online) (simulate O P.base1 s tr rootM root κ cs online x)).1.zeta)
    (h2 : s ≠ root * (computeChallenges O (initPlonk tr pk.vk online) (simulate O P.base1 s tr rootM root κ cs online x)).1.zeta) :
    verifier O P (setup P d s) tr pk.vk online (simulate O P.base1 s tr rootM root κ cs online x) = .ok () := by
  rw [C60_indexer P msm hm d s lag rootOf κ rootM root cs hwf D (by omega) hroot hlag] at hpk
  obtain rfl := Res.ok.inj hpk
  generalize hcmW : (List.range 5).map (fun j => ext5 x.ws j • P.base1) = cmW
  generalize hb : challenge O (initPlonk tr (pkOf s P.base1 rootM root κ cs).vk online ++ cmW.map .commitment) "beta" = b
  generalize hc : challenge O b.2 "gamma" = c
  generalize ha : challenge O (appendCommitment c.2 (x.zs • P.base1)) "alpha" = a
  generalize hcmT : (simParts s root κ cs online b.1 c.1 a.1 x).map (· • P.base1) = cmT
  generalize he : challenge O (a.2 ++ cmT.map .commitment) "zeta" = e
  generalize hu : challenge O (e.2 ++ ((List.range 5).map (ext5 x.wz) ++
    (List.range 4).map fun j => (sigmaPoly root κ cs j).eval e.1).map .field ++ [.field x.zoz]) "u" = u
  have hsim := simulate_run O P.base1 s tr rootM root κ cs online x cmW cmT b c a e u _ _ hcmW hb hc ha hcmT he rfl rfl hu
  simp only at hsim
  have hT : cmT ≠ [] := by
    rw [← hcmT]
    simp [simParts]
  rw [hsim] at h1 h2 ⊢
  generalize hP1 : (s - e.1)⁻¹ • (_ : G1) = pw at h1 h2 ⊢
  generalize hP2 : (s - root * e.1)⁻¹ • (_ : G1) = zw at h1 h2 ⊢
  have hch : computeChallenges O (initPlonk tr (pkOf s P.base1 rootM root κ cs).vk online) (Proof.mk cmW cmT (x.zs • P.base1) ((List.range 5).map (ext5 x.wz)) x.zoz
      ((List.range 4).map fun j => (sigmaPoly root κ cs j).eval e.1) pw zw) = (⟨b.1, c.1, a.1, e.1, u.1⟩, u.2) := by
    subst hb hc ha he hu
    rfl
  rw [hch] at h1 h2
  unfold verifier
  rw [hch]
  have hζ : e.1 ^ cs.gates.length ≠ 1 := by rw [← he]; exact challenge_pow O _ _
  refine (verifierWith_eq O.draw P (setup P d s) s P.base1 rootM root κ cs hwf D online _ (ext5 x.wz) (fun j => (sigmaPoly root κ cs j).eval e.1) [] rfl
    (by simp) hT ⟨b.1, c.1, a.1, e.1, u.1⟩ hζ u.2).trans ?_
  refine C59_diff_points_complete P hP d s u.1 _ _ _ _ (by simp) rfl rfl rfl ?_
  have hzero : P.e 0 P.base2 = 0 := by
    have := P.smul_left 0 0 P.base2
    rwa [zero_smul, zero_smul] at this
  intro i hi
  match i, hi with
  | 0, _ =>
    rw [(verify_iff P d s _ _ _ _).1]
    simp only [List.getElem_cons_zero, List.append_nil]
    rw [← hP1, smul_inv_smul₀ (sub_ne_zero.2 h1)]
    refine Eq.trans (congrArg (fun y => P.e y P.base2) ?_) hzero
    exact sub_self _
  | 1, _ =>
    rw [(verify_iff P d s _ _ _ _).1]
    simp only [List.getElem_cons_succ, List.getElem_cons_zero]
    rw [← hP2, mul_comm e.1, smul_inv_smul₀ (sub_ne_zero.2 h2)]
    refine Eq.trans (congrArg (fun y => P.e y P.base2) ?_) hzero
    exact sub_self _

/-! ### A case: a secret square root -/

/-- variable 2 is public, variable 3 is secret and variable 2 is its square -/
def secretRoot97 : CS (ZMod 97) :=
  { gates := [constGate 2 0, { padGate with w0 := 3, w1 := 3, w4 := 2, qm1 := 1, qo := 1 }], numVars := 4, pubCons := [0]
    pubVars := [2], boolIdx := [], witness := [0, 1, 25, 5] }

theorem secretRoot97_wf : WF secretRoot97 where
  len := rfl
  pi := by
    intro k c v h1 h2
    match k with
    | 0 => simp [secretRoot97] at h1 h2; subst h1 h2; rfl
    | k + 1 => simp [secretRoot97] at h1
  nodup := by simp [secretRoot97]
  bool := by simp [secretRoot97]
  wit := rfl
  wires := by
    intro g hg v hv
    simp [secretRoot97] at hg
    rcases hg with rfl | rfl <;> simp [padGate, constGate, Gate.wires] at hv <;> simp only [secretRoot97] <;> omega
  two := by simp [secretRoot97]

theorem secretRoot97_sat (y : ZMod 97) (hy : y * y = 25) : Spec.Sat secretRoot97 (fun v => [0, 1, 25, y][v]?.getD 0) [25] := by
  intro i g hg
  match i with
  | 0 =>
    simp [secretRoot97] at hg
    subst hg
    refine ⟨?_, fun h => ?_⟩
    · simp [Spec.Gate.Holds, constGate, Spec.piAt, secretRoot97]
    · simp [secretRoot97] at h
  | 1 =>
    simp [secretRoot97] at hg
    subst hg
    refine ⟨?_, fun h => ?_⟩
    · simp [Spec.Gate.Holds, padGate, Spec.piAt, secretRoot97, hy]
    · simp [secretRoot97] at h
  | i + 2 => simp [secretRoot97] at hg

/-- The two square roots of 25, with challenges equal to 2: every proof that the prover makes from one of them is good for both, and it makes
it from the other with the same number of random values. -/
example (tr : Tr (ZMod 97) (ZMod 97)) (r : Rand (ZMod 97)) : ∃ pk π,
    indexer msm97 (setup pairing97 4 3) none rootOf97 ((List.range 5).map κ97) secretRoot97 = .ok pk ∧
    prover oracle97' msm97 (setup pairing97 4 3) none tr false secretRoot97 pk [0, 1, 25, 5] r.coins = .ok π ∧
    GoodFor oracle97' pairing97.base1 3 tr 28 (28 ^ 16) κ97 secretRoot97 [25] [0, 1, 25, 5] π ∧
    GoodFor oracle97' pairing97.base1 3 tr 28 (28 ^ 16) κ97 secretRoot97 [25] [0, 1, 25, 92] π ∧
    Nonempty ({r : Rand (ZMod 97) // prover oracle97' msm97 (setup pairing97 4 3) none tr false secretRoot97 pk [0, 1, 25, 5] r.coins = .ok π} ≃
      {r : Rand (ZMod 97) // prover oracle97' msm97 (setup pairing97 4 3) none tr false secretRoot97 pk [0, 1, 25, 92] r.coins = .ok π}) := by
  obtain ⟨l1, l2, l3, l4⟩ := coins_lengths r
  have hz : ∀ y : ZMod 97, y = 5 ∨ y = 92 → ∀ i < secretRoot97.gates.length - 1,
      zDen (28 ^ 16) κ97 (wireVal secretRoot97 [0, 1, 25, y]) (sigma secretRoot97) 2 2 2 i ≠ 0 := by
    intro y hy i hi
    have : i = 0 := by simp [secretRoot97] at hi; exact hi
    subst this
    rcases hy with rfl | rfl <;> decide +kernel
  obtain ⟨pk, cmW, h1, -, h2⟩ := C71_complete pairing97 pairing97_nonDegenerate msm97 msm97_correct 4 3 none rootOf97
    κ97 28 (28 ^ 16) secretRoot97 secretRoot97_wf domain97 (by decide) rfl (by intro lp h; cases h) [0, 1, 25, 5] rfl
    (secretRoot97_sat 5 (by decide)) r.coins l1 l2 l3 l4
  obtain ⟨π, h3, -, -⟩ := (h2 oracle97' tr).2 (hz 5 (.inl rfl))
  have g1 : GoodFor oracle97' pairing97.base1 3 tr 28 (28 ^ 16) κ97 secretRoot97 [25] [0, 1, 25, 5] π :=
    ⟨hz 5 (.inl rfl), show (3 : ZMod 97) ≠ 2 by decide, show (3 : ZMod 97) ≠ 28 ^ 16 * 2 by decide +kernel⟩
  have g2 : GoodFor oracle97' pairing97.base1 3 tr 28 (28 ^ 16) κ97 secretRoot97 [25] [0, 1, 25, 92] π :=
    ⟨hz 92 (.inr rfl), show (3 : ZMod 97) ≠ 2 by decide, show (3 : ZMod 97) ≠ 28 ^ 16 * 2 by decide +kernel⟩
  exact ⟨pk, π, h1, h3, g1, g2, C89_witness_indistinguishable pairing97 pairing97_nonDegenerate msm97 msm97_correct 4 3 (by decide) none rootOf97 κ97
    28 (28 ^ 16) secretRoot97 secretRoot97_wf domain97 (by decide) (by decide) (by decide) rfl (by intro lp h; cases h) pk h1 oracle97' tr [25] _ _ rfl rfl rfl
    rfl (secretRoot97_sat 5 (by decide)) (secretRoot97_sat 92 (by decide +kernel)) π g1 g2⟩

end Verif.Snark
