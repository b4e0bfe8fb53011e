import Verif.Snark.Indexer

/-!
The equation the PLONK verifier checks, for a key made by the indexer.
-/

namespace Verif.Snark

open Verif.Poly Verif.Plonk Polynomial
open Verif.AnonCreds (Pairing)

variable {F G1 G2 Gt : Type} [Field F] [DecidableEq F] [AddCommGroup G1] [Module F G1] [AddCommGroup G2] [Module F G2]
  [AddCommGroup Gt] [Module F Gt] [DecidableEq Gt]

/-- the multipliers of the thirteen selectors -/
def multOf (w : Nat → F) : List F :=
  [w 0, w 1, w 2, w 3, w 0 * w 1, w 2 * w 3, 1, w 0 * w 1 * w 2 * w 3 * w 4, w 0 ^ 5, w 1 ^ 5, w 2 ^ 5, w 3 ^ 5, -w 4]

omit [DecidableEq F] in
theorem mult_eq (w : Nat → F) : evalSelectorMultipliers ((List.range 5).map w) = some (multOf w) := by
  simp [List.range_succ, evalSelectorMultipliers, multOf]

omit [Field F] [DecidableEq F] in
theorem range_map_of_length {α : Type} [Inhabited α] (l : List α) (n : Nat) (h : l.length = n) :
    l = (List.range n).map fun i => l[i]?.getD default := by
  refine List.ext_getElem? fun i => ?_
  by_cases hi : i < n
  · rw [List.getElem?_map, List.getElem?_range hi, Option.map_some, List.getElem?_eq_getElem (by omega)]; rfl
  · rw [List.getElem?_eq_none (by omega), List.getElem?_eq_none (by simp; omega)]

/-- the value the verifier expects of the linearisation polynomial at `ζ` -/
def rEvalForm (w σ : Nat → F) (zEv : F) (ch : Challenges F) (piEv l1 : F) : F :=
  ch.alpha * zEv * (w 0 + ch.beta * σ 0 + ch.gamma) * (w 1 + ch.beta * σ 1 + ch.gamma) * (w 2 + ch.beta * σ 2 + ch.gamma)
    * (w 3 + ch.beta * σ 3 + ch.gamma) * (w 4 + ch.gamma) + l1 * (ch.alpha * ch.alpha) - piEv

omit [DecidableEq F] [AddCommGroup G1] [Module F G1] in
theorem rEvalZeta_eq (proof : Proof G1 F) (w σ : Nat → F) (more : List F) (hw : proof.wEv = (List.range 5).map w)
    (hs : proof.sEv = (List.range 4).map σ ++ more) (ch : Challenges F) (piEv l1 : F) :
    rEvalZeta proof ch piEv l1 = .ok (rEvalForm w σ proof.zEv ch piEv l1) := by
  unfold rEvalZeta sProduct
  rw [hw, hs]
  simp [List.range_succ, index, rEvalForm]

/-- the public inputs as a polynomial -/
def piInterp (root : F) (n : Nat) (pubCons : List Nat) (pi : List F) : List F :=
  interp root n ((List.range n).map (Spec.piAt pubCons pi))

theorem piInterp_eval {n : Nat} {rootM root : F} {κ : Nat → F} (D : Domain n rootM root κ) (pubCons : List Nat) (pi : List F)
    (i : Nat) (hi : i < n) : (toPoly (piInterp root n pubCons pi)).eval (root ^ i) = Spec.piAt pubCons pi i := by
  rw [piInterp, (interp_spec D _).2.2.2.1 i hi, List.getElem?_map, List.getElem?_range hi]; rfl

omit [AddCommGroup G1] [Module F G1] in
theorem evalPi_pkOf [AddCommGroup G1] [Module F G1] (s : F) (g : G1) (rootM root : F) (κ : Nat → F) (cs : CS F) (hwf : WF cs)
    (D : Domain cs.gates.length rootM root κ) (pi : List F) (zeta : F) (hz : zeta ^ cs.gates.length ≠ 1) :
    evalPi (pkOf s g rootM root κ cs).vk pi (zeta ^ cs.gates.length - 1) zeta =
      .ok ((toPoly (piInterp root cs.gates.length cs.pubCons pi)).eval zeta) := by
  refine C60_eval_pi (pkOf s g rootM root κ cs).vk cs.gates.length D.pos D.primN hwf.nodup hwf.pubCons_lt ?_ pi zeta hz _ ?_ ?_
  · exact mapM_ok _ _ _ fun b hb => C60_lagrange_constant root _ b (hwf.pubCons_lt b hb) D.primN
  · exact degree_interp D _
  · intro i hi
    exact piInterp_eval D _ _ i hi

/-- the commitment to the linearisation polynomial as the verifier computes it -/
def cmRForm (vk : VK G1 F) (s4 : G1) (w : Nat → F) (sEv : List F) (zEv : F) (ch : Challenges F) (cmZ : G1) (cmT : List G1) : G1 :=
  rForm ((List.range 5).map w) vk.k sEv zEv ch (∑ i ∈ Finset.range vk.csSize, ch.zeta ^ i) (ch.zeta ^ vk.csSize - 1)
    (vk.csSize + 2) (multOf w) vk.cmQ vk.cmQb s4 cmZ cmT

theorem rCommitment_eq (s : F) (g : G1) (rootM root : F) (κ : Nat → F) (cs : CS F) (w σ : Nat → F) (more : List F) (zEv : F)
    (ch : Challenges F) (cmZ : G1) (cmT : List G1) (hT : cmT ≠ []) (l1 zh : F) (nT : Nat) :
    rCommitment (pkOf s g rootM root κ cs).vk cmZ ((List.range 5).map w) ((List.range 4).map σ ++ more) zEv ch cmT l1 zh nT =
      .ok (rForm ((List.range 5).map w) ((List.range 5).map κ) ((List.range 4).map σ ++ more) zEv ch l1 zh nT (multOf w)
        (pkOf s g rootM root κ cs).vk.cmQ (pkOf s g rootM root κ cs).vk.cmQb
        ((toPoly (interp root cs.gates.length (sigmaColumn cs root κ 4))).eval s • g) cmZ cmT) := by
  obtain ⟨t, ts, rfl⟩ := List.exists_cons_of_ne_nil hT
  unfold rCommitment
  rw [mult_eq, Res.unwrap_some, Res.bind_ok]
  have h4 : index (pkOf s g rootM root κ cs).vk.cmS 4 =
      .ok ((toPoly (interp root cs.gates.length (sigmaColumn cs root κ 4))).eval s • g) := by
    simp [pkOf, List.range_succ, index]
  rw [h4, Res.bind_ok]
  obtain ⟨r, h1, h2⟩ := rPolyOrComm_eq (hom_comm (F := F) (G1 := G1)) (w 0) (w 1) (w 2) (w 3) (w 4) (κ 0) (κ 1) (κ 2) (κ 3) (κ 4)
    (σ 0) (σ 1) (σ 2) (σ 3) more zEv ch l1 zh nT (multOf w) (by simp [evalSelectorMultipliers, multOf])
    ((pkOf s g rootM root κ cs).vk.cmQ.headD 0) (pkOf s g rootM root κ cs).vk.cmQ.tail (by simp [pkOf, selectors])
    (pkOf s g rootM root κ cs).vk.cmQb ((toPoly (interp root cs.gates.length (sigmaColumn cs root κ 4))).eval s • g) cmZ t ts
  have hr : r = _ := h2
  rw [hr] at h1
  have e5 : ∀ f : Nat → F, (List.range 5).map f = [f 0, f 1, f 2, f 3, f 4] := fun f => by simp [List.range_succ]
  have e4 : (List.range 4).map σ = [σ 0, σ 1, σ 2, σ 3] := by simp [List.range_succ]
  have hk : (pkOf s g rootM root κ cs).vk.k = [κ 0, κ 1, κ 2, κ 3, κ 4] := by rw [← e5]; rfl
  have hq : (pkOf s g rootM root κ cs).vk.cmQ =
      (pkOf s g rootM root κ cs).vk.cmQ.headD 0 :: (pkOf s g rootM root κ cs).vk.cmQ.tail := by
    simp [pkOf, selectors]
  rw [hk, e5 w, e5 κ, e4]
  simp only [id_eq, List.map_id_fun] at h1
  rw [← hq] at h1
  exact h1

/-- The steps of the verifier after the challenges, for a proof with five wire values and at least four permutation values: one
equation between the two openings. -/
theorem verifierWith_eq (draw : Tr F G1 → Nat → F) (P : Pairing F G1 G2 Gt) (pp : Params G1 G2) (s : F) (g : G1) (rootM root : F)
    (κ : Nat → F) (cs : CS F) (hwf : WF cs) (D : Domain cs.gates.length rootM root κ) (pi : List F) (proof : Proof G1 F)
    (w σ : Nat → F) (more : List F) (hw : proof.wEv = (List.range 5).map w) (hs : proof.sEv = (List.range 4).map σ ++ more)
    (hT : proof.cmT ≠ []) (ch : Challenges F) (hz : ch.zeta ^ cs.gates.length ≠ 1) (tr : Tr F G1) :
    verifierWith draw P pp (pkOf s g rootM root κ cs).vk pi proof ch tr =
      (let alpha := draw (initBatchEval tr (cs.gates.length + 2) ch.zeta ++ [.challenge "alpha"]) 0
       let cmR := cmRForm (pkOf s g rootM root κ cs).vk
        ((toPoly (interp root cs.gates.length (sigmaColumn cs root κ 4))).eval s • g) w ((List.range 4).map σ ++ more) proof.zEv ch
        proof.cmZ proof.cmT
       let rEv := rEvalForm w σ proof.zEv ch ((toPoly (piInterp root cs.gates.length cs.pubCons pi)).eval ch.zeta)
        (∑ i ∈ Finset.range cs.gates.length, ch.zeta ^ i)
       let b := batchLoop alpha ((List.range 5).map w ++ ((List.range 4).map σ ++ more) ++ [rEv])
        (proof.cmW ++ (pkOf s g rootM root κ cs).vk.cmS.take 4 ++ [cmR]) 1 (0, 0)
       batchVerifyDiffPoints P pp [b.1, proof.cmZ] [ch.zeta, ch.zeta * root] [b.2, proof.zEv] [proof.wit, proof.witOmega] ch.u) := by
  have h1 : ch.zeta ≠ 1 := by
    intro h
    rw [h, one_pow] at hz
    exact hz rfl
  have hcs : (pkOf s g rootM root κ cs).vk.csSize = cs.gates.length := rfl
  have hr : (pkOf s g rootM root κ cs).vk.root = root := rfl
  unfold verifierWith
  rw [hcs, C60_first_lagrange, if_neg h1, Res.bind_ok]
  simp only
  rw [evalPi_pkOf s g rootM root κ cs hwf D pi ch.zeta hz, Res.bind_ok, rEvalZeta_eq proof w σ more hw hs, Res.bind_ok, hw, hs,
    rCommitment_eq s g rootM root κ cs w σ more proof.zEv ch proof.cmZ proof.cmT hT, Res.bind_ok, hr]
  rfl

/-- the challenge `ζ` is never a root of unity -/
theorem challenge_pow {C : Type} {n : Nat} (O : Oracle F C n) (tr : Tr F C) (label : String) : (challenge O tr label).1 ^ n ≠ 1 :=
  by
  unfold challenge
  exact Nat.find_spec (O.live _)

/-- the linearisation polynomial of a prover who holds the polynomials -/
theorem rPoly_eq (s : F) (g : G1) (rootM root : F) (κ : Nat → F) (cs : CS F) (w σ : Nat → F) (more : List F) (zEv : F)
    (ch : Challenges F) (z : List F) (ts : List (List F)) (hT : ts ≠ []) :
    ∃ r, rPoly (pkOf s g rootM root κ cs) z ((List.range 5).map w) ((List.range 4).map σ ++ more) zEv ch ts
        (∑ i ∈ Finset.range cs.gates.length, ch.zeta ^ i) (ch.zeta ^ cs.gates.length - 1) (cs.gates.length + 2) = .ok r ∧
      toPoly r = rForm ((List.range 5).map w) ((List.range 5).map κ) ((List.range 4).map σ) zEv ch
        (∑ i ∈ Finset.range cs.gates.length, ch.zeta ^ i) (ch.zeta ^ cs.gates.length - 1) (cs.gates.length + 2) (multOf w)
        ((pkOf s g rootM root κ cs).qPolys.map toPoly) (toPoly (pkOf s g rootM root κ cs).qbPoly)
        (toPoly (interp root cs.gates.length (sigmaColumn cs root κ 4))) (toPoly z) (ts.map toPoly) ∧
      cmRForm (pkOf s g rootM root κ cs).vk
        ((toPoly (interp root cs.gates.length (sigmaColumn cs root κ 4))).eval s • g) w ((List.range 4).map σ ++ more) zEv ch
        ((toPoly z).eval s • g) (ts.map fun p => (toPoly p).eval s • g) = (toPoly r).eval s • g := by
  obtain ⟨t, ts, rfl⟩ := List.exists_cons_of_ne_nil hT
  have h4 : index (pkOf s g rootM root κ cs).sPolys 4 = .ok (interp root cs.gates.length (sigmaColumn cs root κ 4)) := by
    simp [pkOf, List.range_succ, index]
  have e5 : ∀ f : Nat → F, (List.range 5).map f = [f 0, f 1, f 2, f 3, f 4] := fun f => by simp [List.range_succ]
  have e4 : (List.range 4).map σ = [σ 0, σ 1, σ 2, σ 3] := by simp [List.range_succ]
  have hk : (pkOf s g rootM root κ cs).vk.k = [κ 0, κ 1, κ 2, κ 3, κ 4] := by rw [← e5]; rfl
  have hq : (pkOf s g rootM root κ cs).qPolys =
      (pkOf s g rootM root κ cs).qPolys.headD [] :: (pkOf s g rootM root κ cs).qPolys.tail := by
    simp [pkOf, selectors]
  obtain ⟨r, h1, h2⟩ := rPolyOrComm_eq hom_poly (w 0) (w 1) (w 2) (w 3) (w 4) (κ 0) (κ 1) (κ 2) (κ 3) (κ 4)
    (σ 0) (σ 1) (σ 2) (σ 3) more zEv ch (∑ i ∈ Finset.range cs.gates.length, ch.zeta ^ i) (ch.zeta ^ cs.gates.length - 1)
    (cs.gates.length + 2) (multOf w) (by simp [evalSelectorMultipliers, multOf])
    ((pkOf s g rootM root κ cs).qPolys.headD []) (pkOf s g rootM root κ cs).qPolys.tail (by simp [pkOf, selectors])
    (pkOf s g rootM root κ cs).qbPoly (interp root cs.gates.length (sigmaColumn cs root κ 4)) z t ts
  have h2' : toPoly r = rForm ((List.range 5).map w) ((List.range 5).map κ) ((List.range 4).map σ ++ more) zEv ch
        (∑ i ∈ Finset.range cs.gates.length, ch.zeta ^ i) (ch.zeta ^ cs.gates.length - 1) (cs.gates.length + 2) (multOf w)
        ((pkOf s g rootM root κ cs).qPolys.map toPoly) (toPoly (pkOf s g rootM root κ cs).qbPoly)
        (toPoly (interp root cs.gates.length (sigmaColumn cs root κ 4))) (toPoly z) ((t :: ts).map toPoly) := by
    rw [h2, ← List.map_cons (f := toPoly), ← List.map_cons (f := toPoly), ← hq, e5 w, e5 κ, e4]
    rfl
  refine ⟨r, ?_, ?_, ?_⟩
  · unfold rPoly
    rw [mult_eq, Res.unwrap_some, Res.bind_ok, h4, Res.bind_ok, hk, e5 w, e4, hq]
    exact h1
  · rw [h2']
    unfold rForm
    rw [e5 w, e4]
    simp
  · have e := rForm_map (commitMap s g) ((List.range 5).map w) ((List.range 5).map κ) ((List.range 4).map σ ++ more) zEv ch
        (∑ i ∈ Finset.range cs.gates.length, ch.zeta ^ i) (ch.zeta ^ cs.gates.length - 1) (cs.gates.length + 2) (multOf w)
        ((pkOf s g rootM root κ cs).qPolys.map toPoly) (toPoly (pkOf s g rootM root κ cs).qbPoly)
        (toPoly (interp root cs.gates.length (sigmaColumn cs root κ 4))) (toPoly z) ((t :: ts).map toPoly)
    rw [← h2'] at e
    simp only [commitMap_apply, List.map_map] at e
    rw [e]
    rfl

end Verif.Snark
