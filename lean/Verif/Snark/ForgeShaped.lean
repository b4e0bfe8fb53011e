import Mathlib.Data.ZMod.Basic
import Mathlib.GroupTheory.OrderOfElement
import Mathlib.Tactic.NormNum.Prime
import Verif.Snark.Forge

/-!
C70, continued: the second forgery, the panics, and an unsatisfiable system with an accepted proof.
-/

namespace Verif.Snark

open Verif.Poly Verif.Plonk Polynomial
open Verif.AnonCreds (Pairing)

variable {F G1 G2 Gt : Type} [Field F] [DecidableEq F] [AddCommGroup G1] [Module F G1] [AddCommGroup G2] [Module F G2]
  [AddCommGroup Gt] [Module F Gt] [DecidableEq Gt]

/-- A proof of (B), of the shape of honest proofs: zero polynomials and their values. -/
def shapedProof (sEv : List F) (wit witOmega : G1) : Proof G1 F :=
  { cmW := List.replicate 5 0, cmT := List.replicate 5 0, cmZ := 0, wEv := List.replicate 5 0, zEv := 0, sEv := sEv, wit := wit
    witOmega := witOmega }

/-- What is sent before the openings in (B): the permutation values are the true ones. -/
def shapedStart {n : Nat} (O : Oracle F G1 n) (tr : Tr F G1) (pk : PK G1 F) (pi : List F) : List F :=
  (pk.sPolys.take 4).map fun p => eval p (computeChallenges O (initPlonk tr pk.vk pi) (shapedProof [] 0 0)).1.zeta

/-- The proof of (B): the two openings are made for the challenge, which is known before. -/
def forgeShaped {n : Nat} (O : Oracle F G1 n) (msm : List F → List G1 → Res G1) (pp : Params G1 G2) (tr : Tr F G1) (pk : PK G1 F)
    (pi : List F) : Res (Proof G1 F) := do
  let sEv := shapedStart O tr pk pi
  let c := computeChallenges O (initPlonk tr pk.vk pi) (shapedProof sEv 0 0)
  let zl ← firstLagrange c.1.zeta pk.vk.csSize
  let r ← rPoly pk zeroPoly (List.replicate 5 0) sEv 0 c.1 (List.replicate 5 zeroPoly) zl.2 zl.1 (pk.vk.csSize + 2)
  let piEv ← evalPi pk.vk pi zl.1 c.1.zeta
  let rEv ← rEvalZeta (shapedProof sEv (0 : G1) 0) c.1 piEv zl.2
  let alpha := (challengeField O.draw (initBatchEval c.2 (pk.vk.csSize + 2) c.1.zeta) "alpha").1
  -- the combined polynomial and the combined value
  let p := (List.replicate 5 zeroPoly ++ pk.sPolys.take 4 ++ [r]).foldr (fun q acc => Poly.add q (mulScalar acc alpha)) zeroPoly
  let v := (List.replicate 5 0 ++ sEv ++ [rEv]).foldr (fun x acc => x + alpha * acc) 0
  let wits ← forge msm pp p zeroPoly c.1.zeta (c.1.zeta * pk.vk.root) v 0 c.1.u
  pure (shapedProof sEv wits.1 wits.2)

theorem foldr_poly (alpha : F) (ps : List (List F)) (hps : ∀ p ∈ ps, p ≠ []) :
    toPoly (ps.foldr (fun q acc => Poly.add q (mulScalar acc alpha)) zeroPoly) = combine alpha (ps.map toPoly) ∧
      Normal (ps.foldr (fun q acc => Poly.add q (mulScalar acc alpha)) zeroPoly) := by
  induction ps with
  | nil => exact ⟨by simp [combine, tp_zero], normal_zeroPoly⟩
  | cons p ps ih =>
    obtain ⟨h1, h2⟩ := ih fun q hq => hps q (by simp [hq])
    rw [List.foldr_cons, List.map_cons, combine]
    exact ⟨by rw [tp_add, tp_mulScalar, h1, smul_eq_C_mul], (C57_results_normal p _ 0 (hps p (by simp))).2.2.2.1⟩

omit [DecidableEq F] in
theorem foldr_value (alpha : F) (vs : List F) : vs.foldr (fun x acc => x + alpha * acc) 0 = combine alpha vs := by
  induction vs with
  | nil => simp [combine]
  | cons v vs ih => rw [List.foldr_cons, ih, combine, smul_eq_mul]

/-- C70, violated (B): the same with proofs that have the right number of every part, for systems of at least two gates, whenever
the challenges `zeta` and `u` are not zero. -/
theorem C70_forged_shaped (P : Pairing F G1 G2 Gt) (msm : List F → List G1 → Res G1) (hm : MsmCorrect msm) (d : Nat)
    (s : F) (lag : Option (Params G1 G2)) (rootOf : Nat → Res (Option F)) (κ : Nat → F) (rootM root : F) (cs : CS F) (hwf : WF cs)
    (D : Domain cs.gates.length rootM root κ) (hd : cs.gates.length ≤ d + 1) (hd0 : 0 < d) (hn2 : 1 < cs.gates.length)
    (hroot : rootOf (quotSize cs.gates.length) = .ok (some rootM)) (hlag : LagrangeOk P s root cs.gates.length lag)
    (O : Oracle F G1 cs.gates.length) (tr : Tr F G1) (pi : List F) :
    ∃ pk, indexer msm (setup P d s) lag rootOf ((List.range 5).map κ) cs = .ok pk ∧
      (let ch := (computeChallenges O (initPlonk tr pk.vk pi) (shapedProof (shapedStart O tr pk pi) 0 0)).1
       ch.zeta ≠ 0 → ch.u ≠ 0 →
        ∃ pf, forgeShaped O msm (setup P d s) tr pk pi = .ok pf ∧ verifier O P (setup P d s) tr pk.vk pi pf = .ok () ∧
          pf.cmW.length = 5 ∧ pf.cmT.length = 5 ∧ pf.wEv.length = 5 ∧ pf.sEv.length = 4) := by
  refine ⟨pkOf s P.base1 rootM root κ cs, C60_indexer P msm hm d s lag rootOf κ rootM root cs hwf D hd hroot hlag, ?_⟩
  set pk := pkOf s P.base1 rootM root κ cs with hpk
  have hn := D.pos
  set tr0 := initPlonk tr pk.vk pi with htr0
  set sEv := shapedStart O tr pk pi with hsEv0
  set c := computeChallenges O tr0 (shapedProof sEv 0 0) with hc
  intro ch0 hζ0 hu
  change c.1.zeta ≠ 0 at hζ0
  change c.1.u ≠ 0 at hu
  have hz : c.1.zeta ^ cs.gates.length ≠ 1 := zeta_pow O tr0 _
  have h1 : c.1.zeta ≠ 1 := by
    intro h
    rw [h, one_pow] at hz
    exact hz rfl
  set σ : Nat → F := fun j => eval (interp root cs.gates.length (sigmaColumn cs root κ j)) c.1.zeta with hσ
  have hS : pk.sPolys.take 4 = (List.range 4).map fun j => interp root cs.gates.length (sigmaColumn cs root κ j) :=
    map_range_take fun j => interp root cs.gates.length (sigmaColumn cs root κ j)
  have hsEv : sEv = (List.range 4).map σ := by
    rw [hsEv0, shapedStart, hS, List.map_map, ← htr0, (zeta_before O tr0 (shapedProof [] 0 0) (shapedProof sEv 0 0) rfl rfl rfl).2.2.2]
    rfl
  obtain ⟨r, r1, r2, r3⟩ := rPoly_eq s P.base1 rootM root κ cs (fun _ => 0) σ [] 0 c.1 zeroPoly (List.replicate 5 zeroPoly) (by simp)
  have hrn : Normal r := rPoly_normal _ _ _ _ _ _ _ _ _ _ r r1 fun q hq => (qPolys_ne_nil s P.base1 cs rfl D q hq).1
  have hrd : (toPoly r).natDegree ≤ cs.gates.length - 1 := by
    rw [r2]
    refine rForm_natDegree _ _ _ _ _ _ _ _ _ _ _ _ _ _ _ ?_ (natDegree_interp D _) (natDegree_interp D _) (by simp [tp_zero])
      (by simp [tp_zero])
    intro q hq
    obtain ⟨q', hq', rfl⟩ := List.mem_map.1 hq
    exact (qPolys_ne_nil s P.base1 cs rfl D q' hq').2
  set rEv := rEvalForm (fun _ => 0) σ 0 c.1 ((toPoly (piInterp root cs.gates.length cs.pubCons pi)).eval c.1.zeta)
    (∑ i ∈ Finset.range cs.gates.length, c.1.zeta ^ i) with hrEv
  set alpha := O.draw (initBatchEval c.2 (cs.gates.length + 2) c.1.zeta ++ [.challenge "alpha"]) 0 with halpha
  set ps := List.replicate 5 zeroPoly ++ pk.sPolys.take 4 ++ [r] with hps0
  have hps : ∀ p ∈ ps, p ≠ [] ∧ (toPoly p).natDegree ≤ cs.gates.length - 1 := by
    intro p hp
    rw [hps0, List.append_assoc, List.mem_append, List.mem_append, List.mem_replicate, List.mem_singleton, hS, List.mem_map] at hp
    rcases hp with ⟨-, rfl⟩ | ⟨j, -, rfl⟩ | rfl
    · exact ⟨normal_zeroPoly.1, by simp [tp_zero]⟩
    · exact ⟨(interp_spec D _).2.1.1, natDegree_interp D _⟩
    · exact ⟨hrn.1, hrd⟩
  obtain ⟨p1, p2⟩ := foldr_poly alpha ps fun p hp => (hps p hp).1
  set p := ps.foldr (fun q acc => Poly.add q (mulScalar acc alpha)) zeroPoly with hp
  have hpl : p.length ≤ d + 1 := by
    refine le_trans (normal_length_le p2 (n := cs.gates.length - 1) ?_) (by omega)
    rw [p1]
    refine combine_natDegree _ _ _ fun q hq => ?_
    obtain ⟨q', hq', rfl⟩ := List.mem_map.1 hq
    exact (hps q' hq').2
  have hx : c.1.zeta ≠ c.1.zeta * root := by
    intro h
    have h2 : root = 1 := by
      have : c.1.zeta * 1 = c.1.zeta * root := by rw [mul_one]; exact h
      exact (mul_left_cancel₀ hζ0 this).symm
    have := D.primN.dvd_of_pow_eq_one 1 (by rw [h2, one_pow])
    have := Nat.le_of_dvd (by omega) this
    omega
  have hzl : (zeroPoly : List F).length ≤ d + 1 := by
    rw [show (zeroPoly : List F) = [0] by simp [zeroPoly, fromCoefs, trim, trimRev]]; simp
  obtain ⟨pf1, pf2, f1, f2⟩ := C59_known_challenge_forges P msm hm d s c.1.zeta (c.1.zeta * root)
    ((List.replicate 5 0 ++ sEv ++ [rEv]).foldr (fun x acc => x + alpha * acc) 0) 0 c.1.u p zeroPoly p2.1 normal_zeroPoly.1 hpl hzl
    hd0 hx hu
  refine ⟨shapedProof sEv pf1 pf2, ?_, ?_, by simp [shapedProof], by simp [shapedProof], by simp [shapedProof],
    by simp [shapedProof, hsEv]⟩
  · unfold forgeShaped
    have hcs : pk.vk.csSize = cs.gates.length := rfl
    have hpi := evalPi_pkOf s P.base1 rootM root κ cs hwf D pi c.1.zeta hz
    simp only
    rw [← hsEv0, ← htr0, ← hc, hcs, C60_first_lagrange, if_neg h1, Res.bind_ok]
    simp only
    rw [List.append_nil, ← replicate_five, ← hsEv] at r1
    rw [r1, Res.bind_ok, hpi, Res.bind_ok,
      rEvalZeta_eq (shapedProof sEv (0 : G1) 0) (fun _ => 0) σ [] (replicate_five 0) (by rw [List.append_nil, ← hsEv]; rfl),
      Res.bind_ok]
    rw [show (shapedProof sEv (0 : G1) 0).zEv = 0 from rfl, ← hrEv, ← hps0]
    show (forge msm (setup P d s) p zeroPoly c.1.zeta (c.1.zeta * root) _ 0 c.1.u >>= _) = _
    rw [show (challengeField O.draw (initBatchEval c.2 (cs.gates.length + 2) c.1.zeta) "alpha").1 = alpha from rfl, f1, Res.bind_ok]
    rfl
  · unfold verifier
    simp only
    have hcc : computeChallenges O tr0 (shapedProof sEv pf1 pf2) = c := rfl
    rw [← htr0, hcc]
    have hv := verifierWith_eq O.draw P (setup P d s) s P.base1 rootM root κ cs hwf D pi (shapedProof sEv pf1 pf2) (fun _ => 0) σ
      [] (replicate_five 0) (by rw [List.append_nil, ← hsEv]; rfl) (by simp [shapedProof]) c.1 hz c.2
    rw [hv]
    have hcm0 : (0 : G1) = (toPoly (zeroPoly : List F)).eval s • P.base1 := by rw [tp_zero, eval_zero, zero_smul]
    have hcmT : List.replicate 5 (0 : G1) = (List.replicate 5 zeroPoly).map fun p => (toPoly p).eval s • P.base1 := by
      rw [List.map_replicate, ← hcm0]
    simp only [shapedProof]
    rw [← hcmT, ← hcm0] at r3
    rw [r3, ← halpha, ← hrEv, batchLoop_eq]
    · have hcS : pk.vk.cmS.take 4 = (pk.sPolys.take 4).map fun p => (toPoly p).eval s • P.base1 := List.map_take.symm
      have e2 : List.replicate 5 (0 : G1) ++ pk.vk.cmS.take 4 ++ [(toPoly r).eval s • P.base1] =
          (ps.map toPoly).map (commitMap s P.base1) := by
        rw [List.map_map, hps0, List.map_append, List.map_append, List.map_replicate, hcS]
        simp [commitMap_apply, Function.comp_def, tp_zero]
      rw [e2, ← combine_map, ← p1, commitMap_apply]
      rw [foldr_value, ← hcm0] at f2
      rw [zero_add, one_smul, zero_add, one_mul, List.append_nil, ← hsEv, ← replicate_five]
      exact f2
    · simp [pkOf]

/-! ### Malformed proofs -/

omit [DecidableEq F] in
theorem foldlM_panic {α β : Type} (f : β → α → Res β) (l : List α) (b : β) (hne : ∀ b, ∀ x ∈ l, f b x ≠ .err)
    (hp : ∃ x ∈ l, ∀ b, f b x = .panic) : l.foldlM f b = .panic := by
  induction l generalizing b with
  | nil => simp at hp
  | cons a l ih =>
    rw [List.foldlM_cons]
    cases h : f b a with
    | err => exact absurd h (hne b a (by simp))
    | panic => rfl
    | ok c =>
      rw [Res.bind_ok]
      obtain ⟨x, hx, hxp⟩ := hp
      rcases List.mem_cons.1 hx with rfl | hx
      · rw [hxp b] at h; cases h
      · exact ih c (fun b x hx => hne b x (by simp [hx])) ⟨x, hx, hxp⟩

theorem index_ne_err {α : Type} (l : List α) (i : Nat) : index l i ≠ .err := by
  unfold index
  cases l[i]? <;> simp

theorem index_cases {α : Type} (l : List α) (i : Nat) : index l i = .panic ∨ ∃ a, index l i = .ok a := by
  unfold index
  cases l[i]? with
  | none => exact Or.inl rfl
  | some a => exact Or.inr ⟨a, rfl⟩

theorem index_panic {α : Type} (l : List α) (i : Nat) (h : l.length ≤ i) : index l i = .panic := by
  unfold index
  rw [List.getElem?_eq_none h]; rfl

omit [DecidableEq F] in
theorem foldlM_not_err {α β : Type} (f : β → α → Res β) (l : List α) (b : β) (hne : ∀ b, ∀ x ∈ l, f b x ≠ .err) :
    l.foldlM f b ≠ .err := by
  induction l generalizing b with
  | nil => simp
  | cons a l ih =>
    rw [List.foldlM_cons]
    cases h : f b a with
    | err => exact absurd h (hne b a (by simp))
    | panic => simp
    | ok c => rw [Res.bind_ok]; exact ih c fun b x hx => hne b x (by simp [hx])

omit [DecidableEq F] in
theorem sProduct_not_err (wEv sEv : List F) (ch : Challenges F) (x : F) : sProduct wEv sEv ch x ≠ .err := by
  unfold sProduct
  split
  · simp
  · refine foldlM_not_err _ _ _ fun b i _ => ?_
    rcases index_cases wEv i with h | ⟨a, h⟩ <;> rw [h]
    · simp
    · rcases index_cases sEv i with h' | ⟨a', h'⟩ <;> rw [Res.bind_ok, h'] <;> simp

omit [DecidableEq F] in
theorem sProduct_panic (wEv sEv : List F) (ch : Challenges F) (x : F) (hw : 5 ≤ wEv.length) (hs : sEv.length < 4) :
    sProduct wEv sEv ch x = .panic := by
  unfold sProduct
  rw [if_neg (by omega)]
  refine foldlM_panic _ _ _ (fun b i _ => ?_) ⟨sEv.length, List.mem_range.2 (by omega), fun b => ?_⟩
  · rcases index_cases wEv i with h | ⟨a, h⟩ <;> rw [h]
    · simp
    · rcases index_cases sEv i with h' | ⟨a', h'⟩ <;> rw [Res.bind_ok, h'] <;> simp
  · rcases index_cases wEv sEv.length with h | ⟨a, h⟩ <;> rw [h]
    · rfl
    · rw [Res.bind_ok, index_panic sEv sEv.length le_rfl]; rfl

/-- C70: a proof with another number of wire values than five, with fewer than four permutation values or without a part of the
quotient makes the verifier panic instead of returning an error, for every key of the indexer. -/
theorem C70_malformed_panics (P : Pairing F G1 G2 Gt) (pp : Params G1 G2) (s : F) (g : G1) (rootM root : F) (κ : Nat → F) (cs : CS F)
    (hwf : WF cs) (D : Domain cs.gates.length rootM root κ) (O : Oracle F G1 cs.gates.length) (tr : Tr F G1) (pi : List F)
    (proof : Proof G1 F) (h : proof.wEv.length ≠ 5 ∨ proof.sEv.length < 4 ∨ proof.cmT = []) :
    verifier O P pp tr (pkOf s g rootM root κ cs).vk pi proof = .panic := by
  unfold verifier
  simp only
  set c := computeChallenges O (initPlonk tr (pkOf s g rootM root κ cs).vk pi) proof
  have hz : c.1.zeta ^ cs.gates.length ≠ 1 := zeta_pow O _ _
  have h1 : c.1.zeta ≠ 1 := by
    intro h
    rw [h, one_pow] at hz
    exact hz rfl
  unfold verifierWith
  rw [show (pkOf s g rootM root κ cs).vk.csSize = cs.gates.length from rfl, C60_first_lagrange, if_neg h1, Res.bind_ok]
  simp only
  rw [evalPi_pkOf s g rootM root κ cs hwf D pi c.1.zeta hz, Res.bind_ok]
  have hcase : rEvalZeta proof c.1 ((toPoly (piInterp root cs.gates.length cs.pubCons pi)).eval c.1.zeta)
      (∑ i ∈ Finset.range cs.gates.length, c.1.zeta ^ i) = .panic ∨
      ∃ v, rEvalZeta proof c.1 ((toPoly (piInterp root cs.gates.length cs.pubCons pi)).eval c.1.zeta)
        (∑ i ∈ Finset.range cs.gates.length, c.1.zeta ^ i) = .ok v := by
    unfold rEvalZeta
    cases h : sProduct proof.wEv proof.sEv c.1 (c.1.alpha * proof.zEv) with
    | err => exact absurd h (sProduct_not_err _ _ _ _)
    | panic => exact Or.inl rfl
    | ok t =>
      rw [Res.bind_ok]
      rcases index_cases proof.wEv (proof.wEv.length - 1) with h | ⟨a, h⟩ <;> rw [h]
      · exact Or.inl rfl
      · exact Or.inr ⟨_, rfl⟩
  rcases hcase with h' | ⟨v, h'⟩
  · rw [h']; rfl
  rw [h', Res.bind_ok]
  suffices hr : rCommitment (pkOf s g rootM root κ cs).vk proof.cmZ proof.wEv proof.sEv proof.zEv c.1 proof.cmT
      (∑ i ∈ Finset.range cs.gates.length, c.1.zeta ^ i) (c.1.zeta ^ cs.gates.length - 1) (cs.gates.length + 2) = .panic by
    rw [hr]; rfl
  unfold rCommitment
  by_cases hw5 : proof.wEv.length < 5
  · have : evalSelectorMultipliers proof.wEv = none := by
      match hh : proof.wEv with
      | [] => rfl
      | [_] => rfl
      | [_, _] => rfl
      | [_, _, _] => rfl
      | [_, _, _, _] => rfl
      | _ :: _ :: _ :: _ :: _ :: _ => rw [hh] at hw5; simp at hw5; omega
    rw [this]; rfl
  have hm : ∃ w, evalSelectorMultipliers proof.wEv = some w ∧ w.length = 13 := by
    match hh : proof.wEv with
    | [] => rw [hh] at hw5; simp at hw5
    | [_] => rw [hh] at hw5; simp at hw5
    | [_, _] => rw [hh] at hw5; simp at hw5
    | [_, _, _] => rw [hh] at hw5; simp at hw5
    | [_, _, _, _] => rw [hh] at hw5; simp at hw5
    | _ :: _ :: _ :: _ :: _ :: _ => exact ⟨_, rfl, rfl⟩
  obtain ⟨w, hw, hwl⟩ := hm
  rw [hw, Res.unwrap_some, Res.bind_ok]
  have h4 : index (pkOf s g rootM root κ cs).vk.cmS 4 =
      .ok ((toPoly (interp root cs.gates.length (sigmaColumn cs root κ 4))).eval s • g) := by
    simp [pkOf, List.range_succ, index]
  rw [h4, Res.bind_ok]
  unfold rPolyOrComm
  rcases index_cases (pkOf s g rootM root κ cs).vk.cmQ 0 with h' | ⟨q0, h'⟩ <;> rw [h']
  · rfl
  rw [Res.bind_ok]
  rcases index_cases w 0 with h' | ⟨w0, h'⟩ <;> rw [h']
  · rfl
  rw [Res.bind_ok]
  obtain ⟨l, hl, -⟩ := selectorLoop_eq (hom_comm (F := F) (G1 := G1)) (pkOf s g rootM root κ cs).vk.cmQ.tail w.tail
    (commOps.mul q0 w0) (by simp [pkOf, selectors, hwl])
  rw [hl, Res.bind_ok]
  have hk : (pkOf s g rootM root κ cs).vk.k.length = 5 := by simp [pkOf]
  have hzs : ∀ l1, (zScalar proof.wEv (pkOf s g rootM root κ cs).vk.k c.1 l1 = .panic) ∨
      (proof.wEv.length = 5 ∧ ∃ x, zScalar proof.wEv (pkOf s g rootM root κ cs).vk.k c.1 l1 = .ok x) := by
    intro l1
    unfold zScalar
    have hne : ∀ (b : F), ∀ x ∈ List.range proof.wEv.length, (do
        let w ← index proof.wEv x
        let ki ← index (pkOf s g rootM root κ cs).vk.k x
        pure (b * (w + ki * (c.1.beta * c.1.zeta) + c.1.gamma)) : Res F) ≠ .err := by
      intro b i _
      rcases index_cases proof.wEv i with h | ⟨a, h⟩ <;> rw [h]
      · simp
      · rcases index_cases (pkOf s g rootM root κ cs).vk.k i with h' | ⟨a', h'⟩ <;> rw [Res.bind_ok, h'] <;> simp
    by_cases h6 : proof.wEv.length = 5
    · cases hf : (List.range proof.wEv.length).foldlM (fun b x => do
        let w ← index proof.wEv x
        let ki ← index (pkOf s g rootM root κ cs).vk.k x
        pure (b * (w + ki * (c.1.beta * c.1.zeta) + c.1.gamma))) c.1.alpha with
      | err => exact absurd hf (foldlM_not_err _ _ _ hne)
      | panic => exact Or.inl rfl
      | ok v => exact Or.inr ⟨h6, _, rfl⟩
    · refine Or.inl ?_
      rw [foldlM_panic _ _ _ hne ⟨5, List.mem_range.2 (by omega), fun b => ?_⟩]
      · rfl
      · rcases index_cases proof.wEv 5 with h | ⟨a, h⟩ <;> rw [h]
        · rfl
        · rw [Res.bind_ok, index_panic _ _ (by rw [hk])]; rfl
  rcases hzs (∑ i ∈ Finset.range cs.gates.length, c.1.zeta ^ i) with hzz | ⟨hlen, x, hzz⟩ <;> rw [hzz]
  · rfl
  rw [Res.bind_ok]
  by_cases hs4 : proof.sEv.length < 4
  · rw [sProduct_panic _ _ _ _ (by omega) hs4]; rfl
  have hT : proof.cmT = [] := by
    rcases h with h | h | h
    · exact absurd hlen h
    · exact absurd h hs4
    · exact h
  cases hsp : sProduct proof.wEv proof.sEv c.1 (c.1.alpha * (proof.zEv * c.1.beta)) with
  | err => exact absurd hsp (sProduct_not_err _ _ _ _)
  | panic => rfl
  | ok t =>
    rw [Res.bind_ok]
    rcases index_cases w 1 with h' | ⟨w1, h'⟩ <;> rw [h']
    · rfl
    rw [Res.bind_ok]
    rcases index_cases w 2 with h' | ⟨w2, h'⟩ <;> rw [h']
    · rfl
    rw [Res.bind_ok]
    rcases index_cases w 3 with h' | ⟨w3, h'⟩ <;> rw [h']
    · rfl
    rw [Res.bind_ok, hT]
    rfl

end Verif.Snark
