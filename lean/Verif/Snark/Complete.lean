import Verif.Snark.Accum
import Verif.Snark.Concrete

/-!
C71: proofs for satisfying witnesses are accepted.
-/

namespace Verif.Snark

open Verif.Poly Verif.Plonk Polynomial
open Verif.AnonCreds (Pairing)

variable {F G1 G2 Gt : Type} [Field F] [DecidableEq F] [AddCommGroup G1] [Module F G1] [AddCommGroup G2] [Module F G2]
  [AddCommGroup Gt] [Module F Gt] [DecidableEq Gt]

omit [DecidableEq F] in
/-- the linearisation differs from what the verifier expects of it by the combined constraints minus the quotient -/
theorem rForm_numer (w κ σ q : Nat → F) (zEv : F) (ch : Challenges F) (l1 zh : F) (nT : Nat) (qb z pi : F) (ts : List F) :
    rForm ((List.range 5).map w) ((List.range 5).map κ) ((List.range 4).map σ) zEv ch l1 zh nT (multOf w) ((List.range 13).map q) qb
        (σ 4) z ts =
      rEvalForm w σ zEv ch pi l1 + numer ch.beta ch.gamma ch.alpha q w κ σ ch.zeta z zEv l1 qb pi - zh * combine (ch.zeta ^ nT) ts := by
  simp only [rForm, multOf, rEvalForm, numer, gateForm, permForm, List.range_succ, List.range_zero, List.nil_append, List.cons_append,
    List.map_cons, List.map_nil, List.zipWith_cons_cons, List.zipWith_nil_left, List.sum_cons, List.sum_nil, List.prod_cons,
    List.prod_nil, List.take_succ_cons, List.take_zero, List.getElem?_cons_succ, List.getElem?_cons_zero, Option.getD_some,
    Finset.prod_range_succ, Finset.prod_range_zero, smul_eq_mul]
  ring

omit [AddCommGroup G1] [Module F G1] in
theorem pubVars_lt {cs : CS F} (h : WF cs) : ∀ v ∈ cs.pubVars, v < cs.numVars := by
  intro v hv
  obtain ⟨k, hk, rfl⟩ := List.mem_iff_getElem.mp hv
  have hc : k < cs.pubCons.length := by rw [h.len]; exact hk
  have hg := h.pi k _ _ (List.getElem?_eq_getElem hc) (List.getElem?_eq_getElem hk)
  exact h.wires _ (List.mem_of_getElem? hg) _ (by simp [constGate, Gate.wires])

omit [DecidableEq Gt] [Module F Gt] [AddCommGroup Gt] in
/-- a run of the prover, step by step -/
theorem prover_run {n : Nat} (O : Oracle F G1 n) (msm : List F → List G1 → Res G1) (pp : Params G1 G2) (lag : Option (Params G1 G2))
    (tr : Tr F G1) (cs : CS F) (pk : PK G1 F) (w : List F) (coins : Coins F) (online ext pi : List F) (wc : List (G1 × List F))
    (b c a e u : F × Tr F G1) (zEvals : List F) (zc : G1 × List F) (t : List F) (tc : List (G1 × List F)) (zl : F × F) (r : List F)
    (wit : G1 × Tr F G1) (wz : G1)
    (h1 : cs.pubVars.mapM (index w) = .ok online) (h2 : Res.unwrap (extendWitness cs.wiring w) = .ok ext)
    (h3 : piPoly pk online = .ok pi)
    (h4 : coins.w.zipIdx.mapM (fun b => commitHidden msm pp (useLagrange lag cs.gates.length) pk.vk.root cs.gates.length
      (slice ext b.2 cs.gates.length) b.1) = .ok wc)
    (hb : challenge O (initPlonk tr pk.vk online ++ (wc.map (·.1)).map .commitment) "beta" = b) (hc : challenge O b.2 "gamma" = c)
    (h5 : zPoly (computePermutation cs.wiring cs.numVars) ext pk.group pk.vk.k b.1 c.1 = .ok zEvals)
    (h6 : commitHidden msm pp (useLagrange lag cs.gates.length) pk.vk.root cs.gates.length zEvals coins.z = .ok zc)
    (ha : challenge O (appendCommitment c.2 zc.1) "alpha" = a)
    (h7 : tPoly pk cs.gates.length (wc.map (·.2)) zc.2 b.1 c.1 a.1 pi = .ok t)
    (h8 : splitT msm pp t (cs.gates.length + 2) coins.t = .ok tc)
    (he : challenge O (a.2 ++ (tc.map (·.1)).map .commitment) "zeta" = e)
    (hu : challenge O (e.2 ++ ((wc.map (·.2)).map (fun p => eval p e.1) ++ (pk.sPolys.take 4).map (fun p => eval p e.1)).map .field ++
      [.field (eval zc.2 (pk.vk.root * e.1))]) "u" = u)
    (h9 : firstLagrange e.1 cs.gates.length = .ok zl)
    (h10 : rPoly pk zc.2 ((wc.map (·.2)).map fun p => eval p e.1) ((pk.sPolys.take 4).map fun p => eval p e.1)
      (eval zc.2 (pk.vk.root * e.1)) ⟨b.1, c.1, a.1, e.1, u.1⟩ (tc.map (·.2)) zl.2 zl.1 (cs.gates.length + 2) = .ok r)
    (h11 : batchProve O.draw msm pp u.2 (wc.map (·.2) ++ pk.sPolys.take 4 ++ [r]) e.1 (cs.gates.length + 2) = .ok wit)
    (h12 : prove msm pp zc.2 (pk.vk.root * e.1) (cs.gates.length + 2) = .ok wz) :
    prover O msm pp lag tr false cs pk w coins =
      .ok (Proof.mk (wc.map (·.1)) (tc.map (·.1)) zc.1 ((wc.map (·.2)).map fun p => eval p e.1) (eval zc.2 (pk.vk.root * e.1))
        ((pk.sPolys.take 4).map fun p => eval p e.1) wit.1 wz) := by
  obtain ⟨b1, b2⟩ := b
  obtain ⟨c1, c2⟩ := c
  obtain ⟨a1, a2⟩ := a
  obtain ⟨e1, e2⟩ := e
  obtain ⟨u1, u2⟩ := u
  simp only at *
  unfold prover
  simp only [Bool.false_eq_true, if_false, h1, h2, h3, h4, hb, hc, h5, h6, ha, h7, h8, he, hu, h9, h10, h11, h12, Res.bind_ok]
  rfl

omit [DecidableEq Gt] [Module F Gt] [AddCommGroup Gt] in
theorem prover_stop {n : Nat} (O : Oracle F G1 n) (msm : List F → List G1 → Res G1) (pp : Params G1 G2) (lag : Option (Params G1 G2))
    (tr : Tr F G1) (cs : CS F) (pk : PK G1 F) (w : List F) (coins : Coins F) (online ext pi : List F) (wc : List (G1 × List F))
    (b c : F × Tr F G1)
    (h1 : cs.pubVars.mapM (index w) = .ok online) (h2 : Res.unwrap (extendWitness cs.wiring w) = .ok ext)
    (h3 : piPoly pk online = .ok pi)
    (h4 : coins.w.zipIdx.mapM (fun b => commitHidden msm pp (useLagrange lag cs.gates.length) pk.vk.root cs.gates.length
      (slice ext b.2 cs.gates.length) b.1) = .ok wc)
    (hb : challenge O (initPlonk tr pk.vk online ++ (wc.map (·.1)).map .commitment) "beta" = b) (hc : challenge O b.2 "gamma" = c)
    (h5 : zPoly (computePermutation cs.wiring cs.numVars) ext pk.group pk.vk.k b.1 c.1 = .panic) :
    prover O msm pp lag tr false cs pk w coins = .panic := by
  obtain ⟨b1, b2⟩ := b
  obtain ⟨c1, c2⟩ := c
  simp only at *
  unfold prover
  simp only [Bool.false_eq_true, if_false, h1, h2, h3, h4, hb, hc, h5, Res.bind_ok]
  rfl

omit [DecidableEq F] [AddCommGroup G1] [Module F G1] [AddCommGroup G2] [Module F G2] [AddCommGroup Gt] [Module F Gt] [DecidableEq Gt] in
/-- C71: for every first challenge, all second challenges but `5 (n - 1)` make all denominators of the accumulator non-zero. -/
theorem C71_unlucky_few (root : F) (κ W : Nat → F) (σ : Nat → Nat) (n : Nat) (beta : F) :
    ∃ bad : Finset F, bad.card ≤ 5 * (n - 1) ∧ ∀ gamma ∉ bad, ∀ i < n - 1, zDen root κ W σ n beta gamma i ≠ 0 := by
  classical
  refine ⟨(Finset.range 5 ×ˢ Finset.range (n - 1)).image fun x =>
    -(W (x.1 * n + x.2) + beta * place root κ n (σ (x.1 * n + x.2))), ?_, fun gamma hg i hi => ?_⟩
  · refine le_trans Finset.card_image_le ?_
    rw [Finset.card_product, Finset.card_range, Finset.card_range]
  · unfold zDen
    rw [Finset.prod_ne_zero_iff]
    intro j hj h
    refine hg (Finset.mem_image.mpr ⟨(j, i), Finset.mem_product.mpr ⟨hj, Finset.mem_range.mpr hi⟩, ?_⟩)
    linear_combination -h

/-- C71: for a satisfying witness, whatever the random values of the prover, the prover returns a proof that the verifier accepts
for the public values of the witness, unless a denominator of the permutation accumulator vanishes for the challenges drawn after
the commitments to the wires: then the prover panics.  These commitments do not depend on the oracle, and few challenges are bad
(`C71_unlucky_few`). -/
theorem C71_complete (P : Pairing F G1 G2 Gt) (hP : NonDegenerate P) (msm : List F → List G1 → Res G1) (hm : MsmCorrect msm) (d : Nat)
    (s : F) (lag : Option (Params G1 G2)) (rootOf : Nat → Res (Option F)) (κ : Nat → F) (rootM root : F) (cs : CS F) (hwf : WF cs)
    (D : Domain cs.gates.length rootM root κ) (hd : cs.gates.length + 2 ≤ d)
    (hroot : rootOf (quotSize cs.gates.length) = .ok (some rootM)) (hlag : LagrangeOk P s root cs.gates.length lag)
    (wit : List F) (hwit : wit.length = cs.numVars)
    (hsat : Spec.Sat cs (fun v => wit[v]?.getD 0) (cs.pubVars.map fun v => wit[v]?.getD 0))
    (coins : Coins F) (hcw : coins.w.length = 5) (hc2 : ∀ b ∈ coins.w, b.length = 2) (hcz : coins.z.length = 3)
    (hct : coins.t.length = 5) :
    ∃ pk cmW, indexer msm (setup P d s) lag rootOf ((List.range 5).map κ) cs = .ok pk ∧ cmW.length = 5 ∧
      ∀ (O : Oracle F G1 cs.gates.length) (tr : Tr F G1),
      (let online := cs.pubVars.map fun v => wit[v]?.getD 0
       let b := challenge O (initPlonk tr pk.vk online ++ cmW.map .commitment) "beta"
       let c := challenge O b.2 "gamma"
       ((∃ i < cs.gates.length - 1, zDen root κ (wireVal cs wit) (sigma cs) cs.gates.length b.1 c.1 i = 0) →
          prover O msm (setup P d s) lag tr false cs pk wit coins = .panic) ∧
       ((∀ i < cs.gates.length - 1, zDen root κ (wireVal cs wit) (sigma cs) cs.gates.length b.1 c.1 i ≠ 0) →
          ∃ pf, prover O msm (setup P d s) lag tr false cs pk wit coins = .ok pf ∧ pf.cmW = cmW ∧
            verifier O P (setup P d s) tr pk.vk online pf = .ok ())) := by
  have hn := D.pos
  set pk := pkOf s P.base1 rootM root κ cs with hpk
  set online := cs.pubVars.map fun v => wit[v]?.getD 0 with honline
  set W := wireVal cs wit with hWW
  have hqs := quotSize_spec hn
  -- the wire polynomials
  have hcol : ∀ j, ∃ q, j < 5 → commitHidden msm (setup P d s) (useLagrange lag cs.gates.length) root cs.gates.length
      (slice ((List.range (5 * cs.gates.length)).map W) j cs.gates.length) (coins.w[j]?.getD []) = .ok ((toPoly q).eval s • P.base1, q) ∧ Normal q ∧
      q.length ≤ cs.gates.length + 2 ∧ ∀ i < cs.gates.length, (toPoly q).eval (root ^ i) = W (j * cs.gates.length + i) := by
    intro j
    by_cases hj : j < 5
    swap
    · exact ⟨[], fun h => absurd h hj⟩
    have hb : (coins.w[j]?.getD []).length = 2 := by
      rw [List.getElem?_eq_getElem (by omega), Option.getD_some]
      exact hc2 _ (List.getElem_mem _)
    obtain ⟨q, h1, h2, h3, h4⟩ := commitHidden_eq P msm hm d s D lag hlag (slice ((List.range (5 * cs.gates.length)).map W) j cs.gates.length)
      (coins.w[j]?.getD []) (by rw [slice_eq W cs.gates.length j hj]; intro h; have := congrArg List.length h; rw [List.length_map, List.length_range, List.length_nil] at this; omega)
      (by rw [slice_eq W cs.gates.length j hj]; simp) (by rw [hb]; omega)
    rw [hb] at h3
    refine ⟨q, fun _ => ⟨h1, h2, h3, fun i hi => ?_⟩⟩
    rw [h4 i hi, slice_eq W cs.gates.length j hj, List.getElem?_map, List.getElem?_range hi]; rfl
  choose wq hwq using hcol
  set cmW : List G1 := (List.range 5).map fun j => (toPoly (wq j)).eval s • P.base1 with hcmW
  refine ⟨pk, cmW, C60_indexer P msm hm d s lag rootOf κ rootM root cs hwf D (by omega) hroot hlag, by simp [cmW], ?_⟩
  intro O tr online' b c
  have hc : challenge O b.2 "gamma" = c := rfl
  have hb : challenge O (initPlonk tr pk.vk online ++ cmW.map .commitment) "beta" = b := rfl
  clear_value c b
  -- the steps before the accumulator
  have hon : cs.pubVars.mapM (index wit) = .ok online := by
    refine mapM_ok _ _ _ fun v hv => index_ok ?_
    have := pubVars_lt hwf v hv
    rw [List.getElem?_eq_getElem (by omega)]; rfl
  have hext : Res.unwrap (extendWitness cs.wiring wit) = .ok ((List.range (5 * cs.gates.length)).map W) := by rw [extend_eq hwf wit hwit]; rfl
  have hpi := piPoly_eq s P.base1 rootM root κ cs hwf D online (by rw [hwf.len]; simp [online])
  set pi := piInterp root cs.gates.length cs.pubCons online with hpip
  have hwc : coins.w.zipIdx.mapM (fun b => commitHidden msm (setup P d s) (useLagrange lag cs.gates.length) root cs.gates.length
      (slice ((List.range (5 * cs.gates.length)).map W) b.2 cs.gates.length) b.1) =
      .ok ((List.range 5).map fun j => ((toPoly (wq j)).eval s • P.base1, wq j)) := by
    rw [mapM_ok _ (fun b => ((toPoly (wq b.2)).eval s • P.base1, wq b.2))]
    · have : (List.range 5) = coins.w.zipIdx.map (·.2) := by
        rw [List.zipIdx_map_snd, hcw]; rfl
      rw [this, List.map_map]; rfl
    · intro b hb
      have hb' := List.mem_zipIdx_iff_getElem?.1 hb
      have hlt := (List.getElem?_eq_some_iff.1 hb').1
      have := (hwq b.2 (by omega)).1
      rw [hb', Option.getD_some] at this
      exact this
  have hz := C60_z_poly root κ W (sigma cs) cs.gates.length b.1 c.1 hn (perm_eq hwf).2
  have hcmm : ((List.range 5).map fun j => ((toPoly (wq j)).eval s • P.base1, wq j)).map (·.1) = cmW := by
    rw [List.map_map]; rfl
  have hwp : ((List.range 5).map fun j => ((toPoly (wq j)).eval s • P.base1, wq j)).map (·.2) = (List.range 5).map wq := by
    rw [List.map_map]; rfl
  refine ⟨fun hbad => ?_, fun hden => ?_⟩
  · refine prover_stop O msm (setup P d s) lag tr cs pk wit coins online _ pi _ b c hon hext hpi hwc (by rw [hcmm]; exact hb) hc ?_
    rw [(perm_eq hwf).1]
    exact hz.2 hbad
  obtain ⟨vals, v1, v2, v3⟩ := hz.1 hden
  -- the accumulator
  have hvne : fromCoefs vals ≠ [] := by
    refine (normal_trim ?_).1
    rintro rfl
    rw [List.length_nil] at v2
    omega
  obtain ⟨z, z1, z2, z3, z4⟩ := commitHidden_eq P msm hm d s D lag hlag (fromCoefs vals) coins.z hvne
    (le_trans (trim_length_le vals) (by omega)) (by omega)
  rw [hcz] at z3
  have z4' : ∀ k < cs.gates.length, (toPoly z).eval (root ^ k) = vals[k]?.getD 0 := by
    intro k hk
    rw [z4 k hk, ← coeff_toPoly, ← coeff_toPoly, tp_fromCoefs]
  set wp : Nat → F[X] := fun j => toPoly (wq j) with hwpoly
  set cmZ := (toPoly z).eval s • P.base1 with hcmZ
  set a := challenge O (appendCommitment c.2 cmZ) "alpha" with ha
  clear_value a
  -- the quotient
  have hvan := numer_vanishes hwf D wit online hsat b.1 c.1 a.1 wp (toPoly z) (fun j hj i hi => (hwq j hj).2.2.2 i hi) hden
    (fun k hk => by rw [z4' k hk]; exact v3 k hk)
  obtain ⟨T, hT⟩ := (vanish_iff_dvd D _).1 hvan
  have hnd : ∀ j < 5, (wp j).natDegree ≤ cs.gates.length + 1 := fun j hj => by
    have := natDegree_lt_length (hwq j hj).2.1.1
    have := (hwq j hj).2.2.1
    show (toPoly (wq j)).natDegree ≤ _
    omega
  have hzd : (toPoly z).natDegree ≤ cs.gates.length + 2 := by
    have := natDegree_lt_length z2.1
    omega
  have hpid : (toPoly pi).natDegree ≤ cs.gates.length - 1 := natDegree_interp D _
  have hTd : T.natDegree ≤ 5 * cs.gates.length + 7 := by
    by_cases hT0 : T = 0
    · rw [hT0, natDegree_zero]; omega
    have h1 := numerPoly_natDegree D b.1 c.1 a.1 wp (toPoly z) (toPoly pi) hnd hzd (by omega)
    have hmon : (X ^ cs.gates.length - 1 : F[X]).Monic := monic_X_pow_sub_C (1 : F) (by omega)
    rw [hT, hmon.natDegree_mul' hT0, show (X ^ cs.gates.length - 1 : F[X]).natDegree = cs.gates.length from natDegree_X_pow_sub_C (n := cs.gates.length) (r := (1 : F))] at h1
    omega
  have hm1 : 5 * cs.gates.length + 8 ≤ quotSize cs.gates.length := by
    unfold quotSize
    split <;> omega
  obtain ⟨t, t1, t2, t3⟩ := C71_quotient s P.base1 rootM root κ cs D wq z pi b.1 c.1 a.1
    (fun j hj => ⟨(hwq j hj).2.1.1, le_trans (hwq j hj).2.2.1 (le_trans (by omega) hm1)⟩) ⟨z2.1, le_trans z3 (le_trans (by omega) hm1)⟩
    ⟨(interp_spec D _).2.1.1, le_trans (interp_spec D _).2.2.1 (le_trans (by omega) hm1)⟩ T hT
    (lt_of_lt_of_le (Nat.lt_succ_of_le hTd) hm1)
  have htl : t.length ≤ 5 * cs.gates.length + 8 := normal_length_le t2 (by rw [t3]; exact hTd)
  obtain ⟨ts, ts1, ts2, ts3, ts4⟩ := C60_split P msm hm d s t coins.t (cs.gates.length + 2) (by omega) hd
    (by intro h; rw [h] at hct; simp at hct) (by rw [hct]; omega)
  rw [hct] at ts2 ts3
  have htsl : ∀ p ∈ ts, Normal p ∧ p.length ≤ cs.gates.length + 3 := fun p hp => ⟨(ts3 p hp).1, le_trans (ts3 p hp).2 (max_le (by omega) (by omega))⟩
  set cmT := ts.map fun p => (toPoly p).eval s • P.base1 with hcmT
  set e := challenge O (a.2 ++ cmT.map .commitment) "zeta" with he
  have hζ : e.1 ^ cs.gates.length ≠ 1 := challenge_pow O _ _
  clear_value e
  have h1 : e.1 ≠ 1 := by
    intro h
    rw [h, one_pow] at hζ
    exact hζ rfl
  set σ : Nat → F := fun j => (sigmaPoly root κ cs j).eval e.1 with hσ
  set w : Nat → F := fun j => (wp j).eval e.1 with hw
  set zEv := (toPoly z).eval (root * e.1) with hzEv
  set u := challenge O (e.2 ++ ((List.range 5).map w ++ (List.range 4).map σ).map .field ++ [.field zEv]) "u" with hu
  clear_value u
  set ch : Challenges F := ⟨b.1, c.1, a.1, e.1, u.1⟩ with hch
  have hTne : ts ≠ [] := by
    rintro rfl
    simp at ts2
  obtain ⟨r, r1, r2, r3⟩ := rPoly_eq s P.base1 rootM root κ cs w σ [] zEv ch z ts hTne
  have hrn : Normal r := rPoly_normal _ _ _ _ _ _ _ _ _ _ r r1 fun q hq => (qPolys_ne_nil s P.base1 cs rfl D q hq).1
  have hrd : (toPoly r).natDegree ≤ cs.gates.length + 2 := by
    rw [r2]
    refine rForm_natDegree _ _ _ _ _ _ _ _ _ _ _ _ _ _ _ ?_ (le_trans (natDegree_interp D _) (by omega))
      (le_trans (natDegree_interp D _) (by omega)) hzd ?_
    · intro q hq
      obtain ⟨q', hq', rfl⟩ := List.mem_map.1 hq
      exact le_trans (qPolys_ne_nil s P.base1 cs rfl D q' hq').2 (by omega)
    · intro q hq
      obtain ⟨q', hq', rfl⟩ := List.mem_map.1 hq
      have := natDegree_lt_length (htsl q' hq').1.1
      have := (htsl q' hq').2
      omega
  have hrl : r.length ≤ cs.gates.length + 3 := normal_length_le hrn hrd
  set piEv := (toPoly pi).eval e.1 with hpiEv
  set l1 := ∑ i ∈ Finset.range cs.gates.length, e.1 ^ i with hl1
  -- the value of the linearisation
  have hrv : (toPoly r).eval e.1 = rEvalForm w σ zEv ch piEv l1 := by
    have hmap := rForm_map (Polynomial.leval e.1) ((List.range 5).map w) ((List.range 5).map κ) ((List.range 4).map σ) zEv ch l1
      (e.1 ^ cs.gates.length - 1) (cs.gates.length + 2) (multOf w) (pk.qPolys.map toPoly) (toPoly pk.qbPoly) (sigmaPoly root κ cs 4) (toPoly z) (ts.map toPoly)
    have hq : (pk.qPolys.map toPoly).map (Polynomial.leval e.1) = (List.range 13).map fun j => (selPoly root cs j).eval e.1 := by
      simp [pk, pkOf, selectors, List.range_succ, selPoly]
    rw [hq] at hmap
    have hts : (ts.map toPoly).map (Polynomial.leval e.1) = ts.map fun p => (toPoly p).eval e.1 := by
      rw [List.map_map]; rfl
    rw [hts] at hmap
    have key := rForm_numer w κ σ (fun j => (selPoly root cs j).eval e.1) zEv ch l1 (e.1 ^ cs.gates.length - 1) (cs.gates.length + 2) ((boolPoly root cs).eval e.1)
      ((toPoly z).eval e.1) piEv (ts.map fun p => (toPoly p).eval e.1)
    have hnum : numer ch.beta ch.gamma ch.alpha (fun j => (selPoly root cs j).eval e.1) w κ σ ch.zeta ((toPoly z).eval e.1) zEv l1
        ((boolPoly root cs).eval e.1) piEv = (e.1 ^ cs.gates.length - 1) * T.eval e.1 := by
      have := numerPoly_eval root κ cs b.1 c.1 a.1 wp (toPoly z) (toPoly pi) e.1
      rw [hT, eval_mul, eval_sub, eval_pow, eval_X, eval_one] at this
      exact this.symm
    have hcomb := ts4 e.1
    rw [t3] at hcomb
    rw [hnum, show ch.zeta = e.1 from rfl, hcomb, add_sub_cancel_right] at key
    rw [r2]
    show (Polynomial.leval e.1) _ = _
    exact hmap.trans key
  -- the openings
  obtain ⟨zc', zw, zo1, zo2, zo3⟩ := C59_open_complete P msm hm d (cs.gates.length + 2) s (root * e.1) z z2.1 (by omega) (by omega)
  rw [C59_commit P msm hm d s z z2.1, if_pos (by omega)] at zo1
  injection zo1 with zo1
  rw [← zo1, ← hcmZ, ← hzEv] at zo3
  have hS : pk.sPolys.take 4 = (List.range 4).map fun j => interp root cs.gates.length (sigmaColumn cs root κ j) :=
    map_range_take fun j => interp root cs.gates.length (sigmaColumn cs root κ j)
  set ps := (List.range 5).map wq ++ pk.sPolys.take 4 ++ [r] with hps0
  have hps : ∀ p ∈ ps, p ≠ [] ∧ p.length ≤ d + 1 := by
    intro p hp
    rw [hps0, List.append_assoc, List.mem_append, List.mem_append, List.mem_singleton, hS, List.mem_map, List.mem_map] at hp
    rcases hp with ⟨j, hj, rfl⟩ | ⟨j, -, rfl⟩ | rfl
    · have := hwq j (List.mem_range.1 hj)
      exact ⟨this.2.1.1, le_trans this.2.2.1 (by omega)⟩
    · exact ⟨(interp_spec D _).2.1.1, le_trans (interp_spec D _).2.2.1 (by omega)⟩
    · exact ⟨hrn.1, by omega⟩
  obtain ⟨pw, tr', o1, o2⟩ := open_accepted P hP msm hm O.draw u.2 d (cs.gates.length + 2) s e.1 (root * e.1) u.1 zEv ps (by simp [ps]) hps cmZ zw zo3
  have hsEv : (pk.sPolys.take 4).map (fun p => eval p e.1) = (List.range 4).map σ := by
    rw [hS, List.map_map]
    refine List.map_congr_left fun j _ => ?_
    simp only [Function.comp, C57_eval]
    rfl
  have hwEv : ((List.range 5).map wq).map (fun p => eval p e.1) = (List.range 5).map w := by
    rw [List.map_map]
    refine List.map_congr_left fun j _ => ?_
    simp only [Function.comp, C57_eval]
    rfl
  refine ⟨(Proof.mk cmW cmT cmZ ((List.range 5).map w) zEv ((List.range 4).map σ) pw zw), ?_, rfl, ?_⟩
  · have hi2 : (ts.map fun p => ((toPoly p).eval s • P.base1, p)).map (·.2) = ts := by
      rw [List.map_map]
      conv_rhs => rw [← List.map_id ts]
      rfl
    have hi1 : (ts.map fun p => ((toPoly p).eval s • P.base1, p)).map (·.1) = cmT := by rw [List.map_map]; rfl
    have hzE : eval z (root * e.1) = zEv := C57_eval z _
    rw [List.append_nil] at r1
    have := prover_run O msm (setup P d s) lag tr cs pk wit coins online _ pi _ b c a e u (fromCoefs vals) (cmZ, z) t _
      (e.1 ^ cs.gates.length - 1, l1) r (pw, tr') zw hon hext hpi hwc (by rw [hcmm]; exact hb) hc (by rw [(perm_eq hwf).1]; exact v1) z1 ha.symm
      (by rw [hwp]; exact t1) ts1 (by rw [hi1]; exact he.symm)
      (by rw [hwp, hwEv, hsEv, show pk.vk.root = root from rfl, hzE]; exact hu.symm)
      (by rw [C60_first_lagrange, if_neg h1])
      (by rw [hwp, hwEv, hsEv, show pk.vk.root = root from rfl, hzE, hi2]; exact r1)
      (by rw [hwp]; exact o1) zo2
    rw [this, hcmm, hi1, hwp, hwEv, hsEv, show pk.vk.root = root from rfl, hzE]
  · unfold verifier
    simp only
    have hcc : computeChallenges O (initPlonk tr pk.vk online') (Proof.mk cmW cmT cmZ ((List.range 5).map w) zEv ((List.range 4).map σ) pw zw) = (ch, u.2) := by
      simp only [computeChallenges]
      rw [hb, hc, ← ha, ← he, ← hu]
    rw [hcc]
    have hv := verifierWith_eq O.draw P (setup P d s) s P.base1 rootM root κ cs hwf D online (Proof.mk cmW cmT cmZ ((List.range 5).map w) zEv ((List.range 4).map σ) pw zw) w σ [] rfl (by simp)
        (by simpa [cmT] using hTne) ch hζ u.2
    refine hv.trans ?_
    simp only
    rw [r3, List.append_nil]
    have e1 : ps.map (fun p => (toPoly p).eval e.1) = (List.range 5).map w ++ (List.range 4).map σ ++
        [rEvalForm w σ zEv ch piEv l1] := by
      rw [← hrv, hps0, List.map_append, List.map_append, ← hsEv, ← hwEv]
      simp only [C57_eval, List.map_cons, List.map_nil]
    have e2 : ps.map (fun p => (toPoly p).eval s • P.base1) = cmW ++ pk.vk.cmS.take 4 ++ [(toPoly r).eval s • P.base1] := by
      have hcS : pk.vk.cmS.take 4 = (pk.sPolys.take 4).map fun p => (toPoly p).eval s • P.base1 := List.map_take.symm
      rw [hps0, List.map_append, List.map_append, hcS, List.map_map]
      rfl
    simp only at o2
    rw [e1, e2, mul_comm root] at o2
    exact o2

omit [DecidableEq F] in
/-- C71: whatever the wires and `beta`, at most five values of `gamma` per row but the last one make the prover panic -/
theorem C71_bad_gamma [DecidableEq F] (root : F) (κ W : Nat → F) (σ : Nat → Nat) (n : Nat) (beta : F) :
    ∃ bad : Finset F, bad.card ≤ 5 * (n - 1) ∧ ∀ gamma, (∃ i < n - 1, zDen root κ W σ n beta gamma i = 0) → gamma ∈ bad := by
  refine ⟨(Finset.range (n - 1)).biUnion fun i => (Finset.range 5).image fun j =>
    -(W (j * n + i) + beta * place root κ n (σ (j * n + i))), ?_, ?_⟩
  · refine le_trans Finset.card_biUnion_le (le_trans (Finset.sum_le_card_nsmul _ _ 5 fun i _ => ?_) ?_)
    · exact le_trans Finset.card_image_le (by simp)
    · simp [mul_comm]
  · rintro gamma ⟨i, hi, h⟩
    obtain ⟨j, hj, hj0⟩ := Finset.prod_eq_zero_iff.1 h
    refine Finset.mem_biUnion.2 ⟨i, Finset.mem_range.2 hi, Finset.mem_image.2 ⟨j, hj, ?_⟩⟩
    linear_combination -hj0

/-! ### A case: the square of a public value -/

/-- variable 2 is public, variable 3 is its square -/
def square97 : CS (ZMod 97) :=
  { gates := [constGate 2 0, { padGate with w0 := 2, w1 := 2, w4 := 3, qm1 := 1, qo := 1 }], numVars := 4, pubCons := [0]
    pubVars := [2], boolIdx := [], witness := [0, 1, 5, 25] }

theorem square97_wf : WF square97 where
  len := rfl
  pi := by
    intro k c v h1 h2
    match k with
    | 0 => simp [square97] at h1 h2; subst h1 h2; rfl
    | k + 1 => simp [square97] at h1
  nodup := by simp [square97]
  bool := by simp [square97]
  wit := rfl
  wires := by
    intro g hg v hv
    simp [square97] at hg
    rcases hg with rfl | rfl <;> simp [padGate, constGate, Gate.wires] at hv <;> simp only [square97] <;> omega
  two := by simp [square97]

theorem square97_sat : Spec.Sat square97 (fun v => [0, 1, 5, 25][v]?.getD 0) [5] := by
  intro i g hg
  match i with
  | 0 =>
    simp [square97] at hg
    subst hg
    refine ⟨?_, fun h => ?_⟩
    · simp [Spec.Gate.Holds, constGate, Spec.piAt, square97]
    · simp [square97] at h
  | 1 =>
    simp [square97] at hg
    subst hg
    refine ⟨?_, fun h => ?_⟩
    · simp [Spec.Gate.Holds, padGate, Spec.piAt, square97]
      decide
    · simp [square97] at h
  | i + 2 => simp [square97] at hg

/-- with challenges equal to 2, whatever the secret and the random values -/
example (s : ZMod 97) (tr : Tr (ZMod 97) (ZMod 97)) (a b : ZMod 97) :
    ∃ pk pf, indexer msm97 (setup pairing97 4 s) none rootOf97 ((List.range 5).map κ97) square97 = .ok pk ∧
      prover oracle97' msm97 (setup pairing97 4 s) none tr false square97 pk [0, 1, 5, 25]
        ⟨List.replicate 5 [a, b], [b, a, b], [a, a, b, b, a]⟩ = .ok pf ∧
      verifier oracle97' pairing97 (setup pairing97 4 s) tr pk.vk [5] pf = .ok () := by
  obtain ⟨pk, cmW, h1, -, h2⟩ := C71_complete pairing97 pairing97_nonDegenerate msm97 msm97_correct 4 s none rootOf97
    κ97 28 (28 ^ 16) square97 square97_wf domain97 (by decide) rfl (by intro lp h; cases h) [0, 1, 5, 25] rfl square97_sat
    ⟨List.replicate 5 [a, b], [b, a, b], [a, a, b, b, a]⟩ rfl (by simp) rfl rfl
  obtain ⟨pf, h3, -, h4⟩ := (h2 oracle97' tr).2 (by
    intro i hi
    have : i = 0 := by simp [square97] at hi; exact hi
    subst this
    show zDen (28 ^ 16) κ97 (wireVal square97 [0, 1, 5, 25]) (sigma square97) 2 2 2 0 ≠ 0
    decide +kernel)
  exact ⟨pk, pf, h1, h3, h4⟩

end Verif.Snark
