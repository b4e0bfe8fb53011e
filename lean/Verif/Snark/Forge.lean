import Verif.Snark.Verify

/-!
C70: two ways to make the PLONK verifier accept any statement.

(A) The verifier does not check the number of the permutation values in the proof.  A fifth value takes the place of the value
of the linearisation polynomial, which is the only one the verifier computes itself.

(B) The challenge that combines the two openings is drawn before the two opening witnesses are known.
-/

namespace Verif.Snark

open Verif.Poly Verif.Plonk Polynomial
open Verif.AnonCreds (Pairing)

variable {F G1 G2 Gt : Type} [Field F] [DecidableEq F] [AddCommGroup G1] [Module F G1] [AddCommGroup G2] [Module F G2]
  [AddCommGroup Gt] [Module F Gt] [DecidableEq Gt]

/-- A proof of (A): all wire polynomials, the accumulator and the quotient are zero. -/
def longProof (sEv : List F) (wit : G1) : Proof G1 F :=
  { cmW := List.replicate 5 0, cmT := [0], cmZ := 0, wEv := List.replicate 5 0, zEv := 0, sEv := sEv, wit := wit, witOmega := 0 }

/-- The proof of (A) for the public inputs `pi`, without a witness: the value of the linearisation polynomial is sent as a fifth
permutation value.  The permutation values are absorbed after the challenge `zeta`. -/
def forgeLong {n : Nat} (O : Oracle F G1 n) (msm : List F → List G1 → Res G1) (pp : Params G1 G2) (tr : Tr F G1) (pk : PK G1 F)
    (pi : List F) : Res (Proof G1 F) := do
  let ch := (computeChallenges O (initPlonk tr pk.vk pi) (longProof [] 0)).1
  let sEv := (pk.sPolys.take 4).map fun p => eval p ch.zeta
  let zl ← firstLagrange ch.zeta pk.vk.csSize
  let r ← rPoly pk zeroPoly (List.replicate 5 0) sEv 0 ch [zeroPoly] zl.2 zl.1 (pk.vk.csSize + 2)
  let tr := (computeChallenges O (initPlonk tr pk.vk pi) (longProof (sEv ++ [eval r ch.zeta]) 0)).2
  let wit ← batchProve O.draw msm pp tr (List.replicate 5 zeroPoly ++ pk.sPolys.take 4 ++ [r]) ch.zeta (pk.vk.csSize + 2)
  pure (longProof (sEv ++ [eval r ch.zeta]) wit.1)

omit [AddCommGroup G1] [Module F G1] in
/-- `zeta` does not depend on what is sent afterwards -/
theorem zeta_before {n : Nat} (O : Oracle F G1 n) (tr : Tr F G1) (pf pf' : Proof G1 F) (h1 : pf.cmW = pf'.cmW) (h2 : pf.cmT = pf'.cmT)
    (h3 : pf.cmZ = pf'.cmZ) :
    (computeChallenges O tr pf).1.beta = (computeChallenges O tr pf').1.beta ∧
    (computeChallenges O tr pf).1.gamma = (computeChallenges O tr pf').1.gamma ∧
    (computeChallenges O tr pf).1.alpha = (computeChallenges O tr pf').1.alpha ∧
    (computeChallenges O tr pf).1.zeta = (computeChallenges O tr pf').1.zeta := by
  unfold computeChallenges
  rw [h1, h2, h3]
  exact ⟨rfl, rfl, rfl, rfl⟩

omit [AddCommGroup G1] [Module F G1] in
theorem zeta_pow {n : Nat} (O : Oracle F G1 n) (tr : Tr F G1) (pf : Proof G1 F) : (computeChallenges O tr pf).1.zeta ^ n ≠ 1 := by
  unfold computeChallenges
  exact challenge_pow O _ _

/-- the openings of committed polynomials: an honest batched opening and the trivial opening of zero are accepted -/
theorem open_accepted (P : Pairing F G1 G2 Gt) (hP : NonDegenerate P) (msm : List F → List G1 → Res G1) (hm : MsmCorrect msm)
    (H : Tr F G1 → Nat → F) (tr : Tr F G1) (d bound : Nat) (s x y u vz : F) (ps : List (List F)) (hne : ps ≠ [])
    (hp : ∀ p ∈ ps, p ≠ [] ∧ p.length ≤ d + 1) (cz wz : G1) (hz : verify P (setup P d s) cz y vz wz = .ok ()) :
    ∃ wit tr', batchProve H msm (setup P d s) tr ps x bound = .ok (wit, tr') ∧
      (let alpha := H (initBatchEval tr bound x ++ [.challenge "alpha"]) 0
       let b := batchLoop alpha (ps.map fun p => (toPoly p).eval x) (ps.map fun p => (toPoly p).eval s • P.base1) 1 (0, 0)
       batchVerifyDiffPoints P (setup P d s) [b.1, cz] [x, y] [b.2, vz] [wit, wz] u = .ok ()) := by
  obtain ⟨cms, wit, tr', h1, h2, h3⟩ := C59_batch_complete P msm hm H tr d bound s x ps hne hp
  obtain ⟨-, hc⟩ := commitAll_eq P msm hm d s ps (fun p h => (hp p h).1) cms h1
  refine ⟨wit, tr', h2, ?_⟩
  rw [hc] at h3
  refine C59_diff_points_complete P hP d s u _ _ _ _ (by simp) (by simp) (by simp) (by simp) ?_
  intro i hi
  rw [List.length_cons, List.length_cons, List.length_nil] at hi
  match i, hi with
  | 0, _ => exact h3
  | 1, _ => exact hz

omit [DecidableEq F] in
/-- the zip of `batch` cuts off what exceeds the commitments -/
theorem batchLoop_append (alpha : F) (vs more : List F) (cms : List G1) (m : F) (acc : G1 × F) (h : vs.length = cms.length) :
    batchLoop alpha (vs ++ more) cms m acc = batchLoop alpha vs cms m acc := by
  induction vs generalizing cms m acc with
  | nil =>
    cases cms with
    | nil => cases more <;> simp [batchLoop]
    | cons c cms => simp at h
  | cons v vs ih =>
    cases cms with
    | nil => simp at h
    | cons c cms =>
      rw [List.cons_append, batchLoop, batchLoop]
      exact ih cms _ _ (by simpa using h)

theorem verify_zero (P : Pairing F G1 G2 Gt) (d : Nat) (s y : F) : verify P (setup P d s) 0 y 0 0 = .ok () := by
  rw [(verify_iff P d s _ _ _ _).1]
  have := P.smul_left 0 0 P.base2
  simp only [zero_smul, smul_zero, sub_zero] at this ⊢
  exact this

omit [DecidableEq F] in
theorem replicate_five (x : F) : List.replicate 5 x = (List.range 5).map fun _ => x := by
  simp [List.range_succ, List.replicate]

/-- the length of the linearisation polynomial -/
theorem rForm_natDegree (w κ σ : Nat → F) (zEv : F) (ch : Challenges F) (l1 zh : F) (nT : Nat) (mult : List F) (qs : List F[X])
    (qb s4 z : F[X]) (ts : List F[X]) (d : Nat) (hq : ∀ q ∈ qs, q.natDegree ≤ d) (hqb : qb.natDegree ≤ d) (hs : s4.natDegree ≤ d)
    (hz : z.natDegree ≤ d) (ht : ∀ t ∈ ts, t.natDegree ≤ d) :
    (rForm ((List.range 5).map w) ((List.range 5).map κ) ((List.range 4).map σ) zEv ch l1 zh nT mult qs qb s4 z ts).natDegree ≤ d := by
  have hsum : ∀ (mult : List F) (qs : List F[X]), (∀ q ∈ qs, q.natDegree ≤ d) →
      ((List.zipWith (fun a c => a • c) mult qs).sum : F[X]).natDegree ≤ d := by
    intro mult
    induction mult with
    | nil => intro qs _; simp
    | cons a mult ih =>
      intro qs hqs
      cases qs with
      | nil => simp
      | cons q qs =>
        rw [List.zipWith_cons_cons, List.sum_cons]
        exact natDegree_add_le_of_degree_le (le_trans (natDegree_smul_le _ _) (hqs q (by simp)))
          (ih qs fun q hq => hqs q (by simp [hq]))
  have hsub : ∀ a b : F[X], a.natDegree ≤ d → b.natDegree ≤ d → (a - b).natDegree ≤ d := fun a b ha hb =>
    le_trans (natDegree_sub_le a b) (max_le ha hb)
  unfold rForm
  refine hsub _ _ (natDegree_add_le_of_degree_le (hsub _ _ (natDegree_add_le_of_degree_le
    (hsum mult qs hq) ?_) ?_) ?_) ?_
  · exact le_trans (natDegree_smul_le _ _) hz
  · exact le_trans (natDegree_smul_le _ _) hs
  · exact le_trans (natDegree_smul_le _ _) hqb
  · exact le_trans (natDegree_smul_le _ _) (combine_natDegree _ _ _ ht)

theorem natDegree_interp {n : Nat} {rootM root : F} {κ : Nat → F} (D : Domain n rootM root κ) (values : List F) :
    (toPoly (interp root n values)).natDegree ≤ n - 1 := by
  have h := interp_spec D values
  have := natDegree_lt_length h.2.1.1
  have := h.2.2.1
  omega

theorem normal_zeroPoly : Normal (zeroPoly : List F) := normal_trim (by simp)

/-- `r_poly` returns a polynomial in normal form -/
theorem rPoly_normal (pk : PK G1 F) (z wEv sEv : List F) (zEv : F) (ch : Challenges F) (ts : List (List F)) (l1 zh : F) (nT : Nat)
    (r : List F) (h : rPoly pk z wEv sEv zEv ch ts l1 zh nT = .ok r) (hq : ∀ q ∈ pk.qPolys, q ≠ []) : Normal r := by
  have hadd : ∀ a b : List F, a ≠ [] → Normal (Poly.add a b) := fun a b ha => (C57_results_normal a b 0 ha).2.2.2.1
  have hsub : ∀ a b : List F, a ≠ [] → Normal (Poly.sub a b) := fun a b ha => (C57_results_normal a b 0 ha).2.2.2.2.2.1
  have hsel : ∀ (qs : List (List F)) (w : List F) (acc l : List F), acc ≠ [] → selectorLoop polyOps qs w acc = .ok l → l ≠ [] := by
    intro qs
    induction qs with
    | nil =>
      intro w acc l ha hl
      simp only [selectorLoop, Res.ok.injEq] at hl
      exact hl ▸ ha
    | cons q qs ih =>
      intro w acc l ha hl
      cases w with
      | nil => simp [selectorLoop] at hl
      | cons a w => exact ih w _ l (hadd _ _ ha).1 hl
  unfold rPoly rPolyOrComm at h
  simp only [Res.bind_eq_ok] at h
  obtain ⟨mult, -, sl, -, q0, h0, w0, -, l, hl, zs, -, ss, -, w1, -, w2, -, w3, -, t0, -, h⟩ := h
  injection h with h
  rw [← h]
  refine hsub _ _ (hadd _ _ (hsub _ _ (hadd _ _ ?_).1).1).1
  refine hsel _ _ _ _ ?_ hl
  refine ((C57_results_normal q0 q0 w0 ?_).2.2.2.2.2.2.2.2.1).1
  unfold index at h0
  cases hg : pk.qPolys[0]? with
  | none => rw [hg] at h0; cases h0
  | some q =>
    rw [hg] at h0
    injection h0 with h0
    exact h0 ▸ hq q (List.mem_of_getElem? hg)

omit [DecidableEq F] in
theorem map_range_take (f : Nat → List F) : ((List.range 5).map f).take 4 = (List.range 4).map f := by
  simp [List.range_succ, List.take]

theorem qPolys_ne_nil {n : Nat} {rootM root : F} {κ : Nat → F} (s : F) (g : G1) (cs : CS F) (hn : n = cs.gates.length)
    (D : Domain n rootM root κ) : ∀ q ∈ (pkOf s g rootM root κ cs).qPolys, q ≠ [] ∧ (toPoly q).natDegree ≤ n - 1 := by
  subst hn
  intro q hq
  simp only [pkOf, List.mem_map] at hq
  obtain ⟨col, -, rfl⟩ := hq
  exact ⟨(interp_spec D col).2.1.1, natDegree_interp D col⟩

/-- C70, violated (A): for every well-formed system of gates, whatever it says, every list of public inputs and every state of the
transcript, the forger, who knows no witness, makes a proof that the verifier accepts. -/
theorem C70_forged_long (P : Pairing F G1 G2 Gt) (hP : NonDegenerate P) (msm : List F → List G1 → Res G1) (hm : MsmCorrect msm) (d : Nat)
    (s : F) (lag : Option (Params G1 G2)) (rootOf : Nat → Res (Option F)) (κ : Nat → F) (rootM root : F) (cs : CS F) (hwf : WF cs)
    (D : Domain cs.gates.length rootM root κ) (hd : cs.gates.length ≤ d + 1)
    (hroot : rootOf (quotSize cs.gates.length) = .ok (some rootM)) (hlag : LagrangeOk P s root cs.gates.length lag)
    (O : Oracle F G1 cs.gates.length) (tr : Tr F G1) (pi : List F) :
    ∃ pk pf, indexer msm (setup P d s) lag rootOf ((List.range 5).map κ) cs = .ok pk ∧
      forgeLong O msm (setup P d s) tr pk pi = .ok pf ∧ verifier O P (setup P d s) tr pk.vk pi pf = .ok () := by
  refine ⟨pkOf s P.base1 rootM root κ cs, ?_⟩
  set pk := pkOf s P.base1 rootM root κ cs with hpk
  have hn := D.pos
  set tr0 := initPlonk tr pk.vk pi with htr0
  set ch := (computeChallenges O tr0 (longProof [] 0)).1 with hch
  have hz : ch.zeta ^ cs.gates.length ≠ 1 := zeta_pow O tr0 _
  have h1 : ch.zeta ≠ 1 := by
    intro h
    rw [h, one_pow] at hz
    exact hz rfl
  set σ : Nat → F := fun j => eval (interp root cs.gates.length (sigmaColumn cs root κ j)) ch.zeta with hσ
  have hS : pk.sPolys.take 4 = (List.range 4).map fun j => interp root cs.gates.length (sigmaColumn cs root κ j) :=
    map_range_take fun j => interp root cs.gates.length (sigmaColumn cs root κ j)
  have hsEv : ((pk.sPolys.take 4).map fun p => eval p ch.zeta) = (List.range 4).map σ := by rw [hS, List.map_map]; rfl
  obtain ⟨r, r1, r2, -⟩ := rPoly_eq s P.base1 rootM root κ cs (fun _ => 0) σ [] 0 ch zeroPoly [zeroPoly] (by simp)
  have hrn : Normal r := rPoly_normal _ _ _ _ _ _ _ _ _ _ r r1 fun q hq => (qPolys_ne_nil s P.base1 cs rfl D q hq).1
  have hrl : r.length ≤ d + 1 := by
    refine le_trans (normal_length_le hrn (n := cs.gates.length - 1) ?_) (by omega)
    rw [r2]
    refine rForm_natDegree _ _ _ _ _ _ _ _ _ _ _ _ _ _ _ ?_ (natDegree_interp D _) (natDegree_interp D _) (by simp [tp_zero]) (by simp [tp_zero])
    intro q hq
    obtain ⟨q', hq', rfl⟩ := List.mem_map.1 hq
    exact (qPolys_ne_nil s P.base1 cs rfl D q' hq').2
  set c1 := computeChallenges O tr0 (longProof ((List.range 4).map σ ++ [eval r ch.zeta]) 0) with hc1
  have hch1 : c1.1 = { ch with u := c1.1.u } := by
    obtain ⟨a, b, c, e⟩ := zeta_before O tr0 (longProof [] 0) (longProof ((List.range 4).map σ ++ [eval r ch.zeta]) 0) rfl rfl rfl
    rw [← hch, ← hc1] at a b c e
    rw [a, b, c, e]
  have hcR := fun more => (rPoly_eq s P.base1 rootM root κ cs (fun _ => 0) σ more 0 c1.1 zeroPoly [zeroPoly] (by simp))
  obtain ⟨r', -, r2', r3''⟩ := hcR [eval r ch.zeta]
  have hrr : toPoly r' = toPoly r := by
    rw [r2', r2, hch1]; rfl
  rw [hrr] at r3''
  have hps : ∀ p ∈ List.replicate 5 zeroPoly ++ pk.sPolys.take 4 ++ [r], p ≠ [] ∧ p.length ≤ d + 1 := by
    intro p hp
    rw [List.append_assoc, List.mem_append, List.mem_append, List.mem_replicate, List.mem_singleton, hS, List.mem_map] at hp
    rcases hp with ⟨-, rfl⟩ | ⟨j, -, rfl⟩ | rfl
    · exact ⟨normal_zeroPoly.1, by rw [show (zeroPoly : List F) = [0] by simp [zeroPoly, fromCoefs, trim, trimRev]]; simp⟩
    · obtain ⟨-, a, b, -⟩ := interp_spec D (sigmaColumn cs root κ j)
      exact ⟨a.1, by omega⟩
    · exact ⟨hrn.1, hrl⟩
  obtain ⟨wit, tr', b1, b2⟩ := open_accepted P hP msm hm O.draw c1.2 d (cs.gates.length + 2) s ch.zeta (ch.zeta * root) c1.1.u 0
    (List.replicate 5 zeroPoly ++ pk.sPolys.take 4 ++ [r]) (by simp) hps 0 0 (verify_zero P d s _)
  refine ⟨longProof ((List.range 4).map σ ++ [eval r ch.zeta]) wit,
    C60_indexer P msm hm d s lag rootOf κ rootM root cs hwf D hd hroot hlag, ?_, ?_⟩
  · unfold forgeLong
    simp only
    have hcs : pk.vk.csSize = cs.gates.length := rfl
    rw [← htr0, ← hch, hcs, C60_first_lagrange, if_neg h1, Res.bind_ok, hsEv]
    simp only
    rw [List.append_nil, ← replicate_five] at r1
    rw [r1, Res.bind_ok, ← hc1, b1, Res.bind_ok]
    rfl
  · unfold verifier
    simp only
    have hcc : computeChallenges O tr0 (longProof ((List.range 4).map σ ++ [eval r ch.zeta]) wit) = c1 := rfl
    rw [← htr0, hcc]
    have hv := verifierWith_eq O.draw P (setup P d s) s P.base1 rootM root κ cs hwf D pi
      (longProof ((List.range 4).map σ ++ [eval r ch.zeta]) wit) (fun _ => 0) σ
      [eval r ch.zeta] (replicate_five 0) rfl (by simp [longProof]) c1.1 (by rw [hch1]; exact hz) c1.2
    rw [hv]
    have hzeta : c1.1.zeta = ch.zeta := by rw [hch1]
    simp only [longProof]
    rw [hzeta]
    have hcm0 : (0 : G1) = (toPoly (zeroPoly : List F)).eval s • P.base1 := by rw [tp_zero, eval_zero, zero_smul]
    have hcmT : [(0 : G1)] = [zeroPoly].map fun p => (toPoly p).eval s • P.base1 := by
      rw [List.map_cons, ← hcm0]; rfl
    rw [← hcmT, ← hcm0] at r3''
    rw [r3'']
    rw [batchLoop_append]
    · have e1 : (List.range 5).map (fun _ => (0 : F)) ++ ((List.range 4).map σ ++ [eval r ch.zeta]) =
          (List.replicate 5 zeroPoly ++ pk.sPolys.take 4 ++ [r]).map fun p => (toPoly p).eval ch.zeta := by
        rw [← replicate_five, List.map_append, List.map_append, List.map_replicate, tp_zero, eval_zero, hS, List.map_map,
          List.append_assoc]
        simp [hσ, Function.comp_def, C57_eval]
      have hcS : (pkOf s P.base1 rootM root κ cs).vk.cmS.take 4 = (pk.sPolys.take 4).map fun p => (toPoly p).eval s • P.base1 :=
        List.map_take.symm
      have e2 : List.replicate 5 (0 : G1) ++ (pkOf s P.base1 rootM root κ cs).vk.cmS.take 4 ++ [(toPoly r).eval s • P.base1] =
          (List.replicate 5 zeroPoly ++ pk.sPolys.take 4 ++ [r]).map fun p => (toPoly p).eval s • P.base1 := by
        rw [List.map_append, List.map_append, List.map_replicate, ← hcm0, hcS]
        rfl
      rw [e1, e2]
      exact b2
    · simp [pkOf]

end Verif.Snark
