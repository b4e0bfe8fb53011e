import Verif.Snark.Complete

/-!
What the prover sends, in terms of the hidden polynomials: the description of honest proofs that C71 contains, with the random values
of the prover in view.  Used for C89.
-/

namespace Verif.Snark

open Verif.Poly Verif.Plonk Polynomial
open Verif.AnonCreds (Pairing)

variable {F G1 G2 Gt : Type} [Field F] [DecidableEq F] [AddCommGroup G1] [Module F G1] [AddCommGroup G2] [Module F G2]
  [AddCommGroup Gt] [Module F Gt] [DecidableEq Gt]

/-- the polynomial of values on the domain, hidden with the given random values -/
noncomputable def hidden (root : F) (n : Nat) (values blinds : List F) : F[X] :=
  toPoly (interp root n values) + toPoly blinds * (1 - X ^ n)

/-- the values of wire `j` in the rows -/
def wireColumn (cs : CS F) (wit : List F) (j : Nat) : List F := (List.range cs.gates.length).map fun i => wireVal cs wit (j * cs.gates.length + i)

/-- the values of the permutation accumulator -/
def accColumn (root : F) (κ : Nat → F) (cs : CS F) (wit : List F) (beta gamma : F) : List F :=
  match zPoly ((List.range (5 * cs.gates.length)).map (sigma cs)) ((List.range (5 * cs.gates.length)).map (wireVal cs wit))
    ((List.range cs.gates.length).map fun i => root ^ i) ((List.range 5).map κ) beta gamma with
  | .ok v => v
  | _ => []

/-- the parts that the quotient is split into, from part `i` on, with the random values for them -/
noncomputable def partPolys (t : List F) (m : Nat) : Nat → List F → F → List F[X]
  | _, [], _ => []
  | i, [_], prev => [toPoly (t.drop (i * m)) - C prev]
  | i, r :: r' :: rs, prev => (toPoly ((t.drop (i * m)).take m) + C r * X ^ m - C prev) :: partPolys t m (i + 1) (r' :: rs) r

theorem commitHidden_eq' (P : Pairing F G1 G2 Gt) (msm : List F → List G1 → Res G1) (hm : MsmCorrect msm) (d : Nat) (s : F)
    {n : Nat} {rootM root : F} {κ : Nat → F} (D : Domain n rootM root κ) (lag : Option (Params G1 G2))
    (hlag : LagrangeOk P s root n lag) (values blinds : List F) (hv : values ≠ []) (hl : values.length ≤ n)
    (hd : n + blinds.length ≤ d + 1) :
    ∃ q, commitHidden msm (setup P d s) (useLagrange lag n) root n values blinds = .ok ((toPoly q).eval s • P.base1, q) ∧ Normal q ∧
      q.length ≤ n + blinds.length ∧ (∀ i < n, (toPoly q).eval (root ^ i) = (values[i]?).getD 0) ∧ toPoly q = hidden root n values blinds := by
  obtain ⟨q, h1, h2, h3, h4⟩ := commitHidden_eq P msm hm d s D lag hlag values blinds hv hl hd
  refine ⟨q, h1, h2, h3, h4, ?_⟩
  obtain ⟨q', q1, -, -, q4, -⟩ := C60_hide blinds (interp root n values) n (interp_spec D values).2.1
  unfold commitHidden at h1
  rw [(interp_spec D values).1, Res.bind_ok, q1, Res.bind_ok] at h1
  have : q' = q := by
    cases hlg : useLagrange lag n with
    | none =>
      rw [hlg] at h1
      obtain ⟨cm, -, h⟩ := Res.bind_eq_ok.1 h1
      exact congrArg Prod.snd (Res.ok.inj h)
    | some lp =>
      rw [hlg] at h1
      obtain ⟨cm, -, h⟩ := Res.bind_eq_ok.1 h1
      obtain ⟨cm', -, h⟩ := Res.bind_eq_ok.1 h
      exact congrArg Prod.snd (Res.ok.inj h)
  rw [← this, q4]
  rfl

omit [DecidableEq Gt] in
theorem splitLoop_parts (P : Pairing F G1 G2 Gt) (msm : List F → List G1 → Res G1) (t : List F) (pp : Params G1 G2)
    (parts n : Nat) (hn : 0 < n) : ∀ (rands : List F) (i : Nat) (prev : F) (out : List (G1 × List F)),
    i + rands.length = parts → splitLoop msm pp t parts n i rands prev = .ok out →
      out.map (fun e => toPoly e.2) = partPolys t n i rands prev
  | [], _, _, out, _, h => by
    rw [splitLoop] at h
    obtain rfl := Res.ok.inj h
    rfl
  | [rand], i, prev, out, hi, h => by
    rw [splitLoop] at h
    rw [List.length_singleton] at hi
    simp only [if_pos (show i = parts - 1 by omega)] at h
    obtain ⟨coefs, hc, h⟩ := Res.bind_eq_ok.1 h
    obtain rfl := Res.ok.inj hc
    obtain ⟨cm, -, h⟩ := Res.bind_eq_ok.1 h
    obtain ⟨rest, hr, h⟩ := Res.bind_eq_ok.1 h
    rw [splitLoop] at hr
    obtain rfl := Res.ok.inj hr
    obtain rfl := Res.ok.inj h
    rw [partPolys]
    simp only [List.map_cons, List.map_nil, List.cons.injEq, and_true]
    rw [tp_fromCoefs]
    cases t.drop (i * n) with
    | nil => simp [lastPart, toPoly]
    | cons c cs => rw [lastPart, toPoly, toPoly, C_sub]; ring
  | rand :: rand' :: rands, i, prev, out, hi, h => by
    rw [splitLoop] at h
    rw [List.length_cons, List.length_cons] at hi
    simp only [if_neg (show ¬ i = parts - 1 by omega)] at h
    obtain ⟨coefs, hc, h⟩ := Res.bind_eq_ok.1 h
    obtain ⟨cm, -, h⟩ := Res.bind_eq_ok.1 h
    obtain ⟨rest, hr, h⟩ := Res.bind_eq_ok.1 h
    obtain rfl := Res.ok.inj h
    have ih := splitLoop_parts P msm t pp parts n hn (rand' :: rands) (i + 1) rand rest (by rw [List.length_cons]; omega) hr
    obtain ⟨c, hc1, -, hc3⟩ := split_part ((t.drop (i * n)).take n) n rand prev (by rw [List.length_take]; omega) hn
    rw [hc] at hc1
    obtain rfl := Res.ok.inj hc1
    rw [partPolys, List.map_cons, ih, tp_fromCoefs, hc3]

omit [DecidableEq Gt] in
/-- the quotient of a satisfying witness, for polynomials that agree with the columns on the domain -/
theorem quotient_exists {rootM root : F} {κ : Nat → F} {cs : CS F} (hwf : WF cs) (D : Domain cs.gates.length rootM root κ)
    (wit online : List F) (hsat : Spec.Sat cs (fun v => wit[v]?.getD 0) online) (beta gamma alpha : F)
    (hden : ∀ i < cs.gates.length - 1, zDen root κ (wireVal cs wit) (sigma cs) cs.gates.length beta gamma i ≠ 0)
    (bw : Nat → List F) (bz : List F) :
    ∃ t, Normal t ∧ numerPoly root κ cs beta gamma alpha (fun j => hidden root cs.gates.length (wireColumn cs wit j) (bw j))
      (hidden root cs.gates.length (accColumn root κ cs wit beta gamma) bz)
      (toPoly (piInterp root cs.gates.length cs.pubCons online)) = (X ^ cs.gates.length - 1) * toPoly t := by
  have hh : ∀ values blinds, ∀ i < cs.gates.length, (hidden root cs.gates.length values blinds).eval (root ^ i) = values[i]?.getD 0 := by
    intro values blinds i hi
    rw [hidden, eval_add, (interp_spec D values).2.2.2.1 i hi, eval_mul, eval_sub, eval_pow, eval_X, eval_one, D.root_pow, sub_self, mul_zero,
      add_zero]
  obtain ⟨vals, v1, v2, v3⟩ := (C60_z_poly root κ (wireVal cs wit) (sigma cs) cs.gates.length beta gamma D.pos (perm_eq hwf).2).1 hden
  have hvan := numer_vanishes hwf D wit online hsat beta gamma alpha
    (fun j => hidden root cs.gates.length (wireColumn cs wit j) (bw j))
    (hidden root cs.gates.length (accColumn root κ cs wit beta gamma) bz) (fun j hj i hi => by
      rw [hh _ _ i hi, wireColumn, List.getElem?_map, List.getElem?_range hi]; rfl) hden (fun k hk => by
      rw [hh _ _ k hk, accColumn, v1]
      simp only
      rw [← coeff_toPoly, tp_fromCoefs, coeff_toPoly]
      exact v3 k hk)
  obtain ⟨T, hT⟩ := (vanish_iff_dvd D _).1 hvan
  obtain ⟨t, t1, t2⟩ := exists_normal T
  exact ⟨t, t1, by rw [t2, hT]⟩

/-- an honest proof: its parts in terms of the hidden polynomials, and the equations of the two openings -/
theorem prover_describe (P : Pairing F G1 G2 Gt) (hP : NonDegenerate P) (msm : List F → List G1 → Res G1) (hm : MsmCorrect msm) (d : Nat)
    (s : F) (lag : Option (Params G1 G2)) (κ : Nat → F) (rootM root : F) (cs : CS F) (hwf : WF cs)
    (D : Domain cs.gates.length rootM root κ) (hd : cs.gates.length + 2 ≤ d) (hlag : LagrangeOk P s root cs.gates.length lag)
    (O : Oracle F G1 cs.gates.length) (tr : Tr F G1) (wit : List F) (hwit : wit.length = cs.numVars) (online : List F)
    (honline : cs.pubVars.map (fun v => wit[v]?.getD 0) = online)
    (coins : Coins F) (hcw : coins.w.length = 5) (hc2 : ∀ b ∈ coins.w, b.length = 2) (hcz : coins.z.length = 3)
    (hct : coins.t.length = 5) (wp : Nat → F[X])
    (hwp : ∀ j, wp j = hidden root cs.gates.length (wireColumn cs wit j) (coins.w[j]?.getD [])) (cmW : List G1)
    (hcmW : (List.range 5).map (fun j => (wp j).eval s • P.base1) = cmW) (b c : F × Tr F G1)
    (hb : challenge O (initPlonk tr (pkOf s P.base1 rootM root κ cs).vk online ++ cmW.map .commitment) "beta" = b)
    (hc : challenge O b.2 "gamma" = c)
    (hden : ∀ i < cs.gates.length - 1, zDen root κ (wireVal cs wit) (sigma cs) cs.gates.length b.1 c.1 i ≠ 0)
    (zp : F[X]) (hzp : zp = hidden root cs.gates.length (accColumn root κ cs wit b.1 c.1) coins.z) (a : F × Tr F G1)
    (ha : challenge O (appendCommitment c.2 (zp.eval s • P.base1)) "alpha" = a) (t : List F) (ht : Normal t)
    (hT : numerPoly root κ cs b.1 c.1 a.1 wp zp (toPoly (piInterp root cs.gates.length cs.pubCons online)) =
      (X ^ cs.gates.length - 1) * toPoly t)
    (cmT : List G1) (hcmT : (partPolys t (cs.gates.length + 2) 0 coins.t 0).map (fun p => p.eval s • P.base1) = cmT) (e : F × Tr F G1)
    (he : challenge O (a.2 ++ cmT.map .commitment) "zeta" = e) (u : F × Tr F G1)
    (hu : challenge O (e.2 ++ ((List.range 5).map (fun j => (wp j).eval e.1) ++
      (List.range 4).map fun j => (sigmaPoly root κ cs j).eval e.1).map .field ++ [.field (zp.eval (root * e.1))]) "u" = u) :
    ∃ pw zw, prover O msm (setup P d s) lag tr false cs (pkOf s P.base1 rootM root κ cs) wit coins =
        .ok (Proof.mk cmW cmT (zp.eval s • P.base1) ((List.range 5).map fun j => (wp j).eval e.1) (zp.eval (root * e.1))
          ((List.range 4).map fun j => (sigmaPoly root κ cs j).eval e.1) pw zw) ∧
      (let ch : Challenges F := ⟨b.1, c.1, a.1, e.1, u.1⟩
       let o := batchLoop (O.draw (initBatchEval u.2 (cs.gates.length + 2) e.1 ++ [.challenge "alpha"]) 0)
        ((List.range 5).map (fun j => (wp j).eval e.1) ++ (List.range 4).map (fun j => (sigmaPoly root κ cs j).eval e.1) ++
          [rEvalForm (fun j => (wp j).eval e.1) (fun j => (sigmaPoly root κ cs j).eval e.1) (zp.eval (root * e.1)) ch
            ((toPoly (piInterp root cs.gates.length cs.pubCons online)).eval e.1) (∑ i ∈ Finset.range cs.gates.length, e.1 ^ i)])
        (cmW ++ (pkOf s P.base1 rootM root κ cs).vk.cmS.take 4 ++ [cmRForm (pkOf s P.base1 rootM root κ cs).vk
          ((sigmaPoly root κ cs 4).eval s • P.base1) (fun j => (wp j).eval e.1)
          ((List.range 4).map fun j => (sigmaPoly root κ cs j).eval e.1) (zp.eval (root * e.1)) ch (zp.eval s • P.base1) cmT]) 1 (0, 0)
       (s - e.1) • pw = o.1 - o.2 • P.base1) ∧
      (s - root * e.1) • zw = zp.eval s • P.base1 - zp.eval (root * e.1) • P.base1 := by
  have hn := D.pos
  set pk := pkOf s P.base1 rootM root κ cs with hpk
  set W := wireVal cs wit with hWW
  have hqs := quotSize_spec hn
  have hcol : ∀ j, ∃ q, j < 5 → commitHidden msm (setup P d s) (useLagrange lag cs.gates.length) root cs.gates.length
      (slice ((List.range (5 * cs.gates.length)).map W) j cs.gates.length) (coins.w[j]?.getD []) = .ok ((toPoly q).eval s • P.base1, q) ∧ Normal q ∧
      q.length ≤ cs.gates.length + 2 ∧ toPoly q = wp j := by
    intro j
    by_cases hj : j < 5
    swap
    · exact ⟨[], fun h => absurd h hj⟩
    have hb : (coins.w[j]?.getD []).length = 2 := by
      rw [List.getElem?_eq_getElem (by omega), Option.getD_some]
      exact hc2 _ (List.getElem_mem _)
    obtain ⟨q, h1, h2, h3, -, h5⟩ := commitHidden_eq' P msm hm d s D lag hlag (slice ((List.range (5 * cs.gates.length)).map W) j cs.gates.length)
      (coins.w[j]?.getD []) (by rw [slice_eq W cs.gates.length j hj]; intro h; have := congrArg List.length h; rw [List.length_map, List.length_range, List.length_nil] at this; omega)
      (by rw [slice_eq W cs.gates.length j hj]; simp) (by rw [hb]; omega)
    rw [hb] at h3
    refine ⟨q, fun _ => ⟨h1, h2, h3, ?_⟩⟩
    rw [h5, hwp, slice_eq W cs.gates.length j hj]
    rfl
  choose wq hwq using hcol
  have hcmW' : (List.range 5).map (fun j => (toPoly (wq j)).eval s • P.base1) = cmW := by
    rw [← hcmW]
    exact List.map_congr_left fun j hj => by rw [(hwq j (List.mem_range.1 hj)).2.2.2]
  have hon : cs.pubVars.mapM (index wit) = .ok online := by
    rw [← honline]
    refine mapM_ok _ _ _ fun v hv => index_ok ?_
    have := pubVars_lt hwf v hv
    rw [List.getElem?_eq_getElem (by omega)]; rfl
  have hext : Res.unwrap (extendWitness cs.wiring wit) = .ok ((List.range (5 * cs.gates.length)).map W) := by rw [extend_eq hwf wit hwit]; rfl
  have hpi := piPoly_eq s P.base1 rootM root κ cs hwf D online (by rw [hwf.len, ← honline]; simp)
  set pi := piInterp root cs.gates.length cs.pubCons online with hpip
  have hwc : coins.w.zipIdx.mapM (fun b => commitHidden msm (setup P d s) (useLagrange lag cs.gates.length) root cs.gates.length
      (slice ((List.range (5 * cs.gates.length)).map W) b.2 cs.gates.length) b.1) =
      .ok ((List.range 5).map fun j => ((toPoly (wq j)).eval s • P.base1, wq j)) := by
    rw [mapM_ok _ (fun b => ((toPoly (wq b.2)).eval s • P.base1, wq b.2))]
    · have : (List.range 5) = coins.w.zipIdx.map (·.2) := by
        rw [List.zipIdx_map_snd, hcw]; rfl
      rw [this, List.map_map]; rfl
    · intro b hb
      have hb' := List.mem_zipIdx_iff_getElem?.1 hb
      have hlt := (List.getElem?_eq_some_iff.1 hb').1
      have := (hwq b.2 (by omega)).1
      rw [hb', Option.getD_some] at this
      exact this
  have hz := C60_z_poly root κ W (sigma cs) cs.gates.length b.1 c.1 hn (perm_eq hwf).2
  have hcmm : ((List.range 5).map fun j => ((toPoly (wq j)).eval s • P.base1, wq j)).map (·.1) = cmW := by
    rw [List.map_map]; exact hcmW'
  have hwpl : ((List.range 5).map fun j => ((toPoly (wq j)).eval s • P.base1, wq j)).map (·.2) = (List.range 5).map wq := by
    rw [List.map_map]; rfl
  obtain ⟨vals, v1, v2, v3⟩ := hz.1 hden
  have hvne : fromCoefs vals ≠ [] := by
    refine (normal_trim ?_).1
    rintro rfl
    rw [List.length_nil] at v2
    omega
  have hacc : accColumn root κ cs wit b.1 c.1 = fromCoefs vals := by
    rw [accColumn, v1]
  obtain ⟨z, z1, z2, z3, -, z5⟩ := commitHidden_eq' P msm hm d s D lag hlag (fromCoefs vals) coins.z hvne
    (le_trans (trim_length_le vals) (by omega)) (by omega)
  rw [hcz] at z3
  have hz5 : toPoly z = zp := by rw [z5, hzp, hacc]
  rw [hz5] at z1
  have hnd : ∀ j < 5, (wp j).natDegree ≤ cs.gates.length + 1 := fun j hj => by
    have := natDegree_lt_length (hwq j hj).2.1.1
    have := (hwq j hj).2.2.1
    rw [← (hwq j hj).2.2.2]
    omega
  have hzd : (toPoly z).natDegree ≤ cs.gates.length + 2 := by
    have := natDegree_lt_length z2.1
    omega
  have hpid : (toPoly pi).natDegree ≤ cs.gates.length - 1 := natDegree_interp D _
  have hTd : (toPoly t).natDegree ≤ 5 * cs.gates.length + 7 := by
    by_cases hT0 : toPoly t = 0
    · rw [hT0, natDegree_zero]; omega
    have h1 := numerPoly_natDegree D b.1 c.1 a.1 wp (toPoly z) (toPoly pi) hnd hzd (by omega)
    have hmon : (X ^ cs.gates.length - 1 : F[X]).Monic := monic_X_pow_sub_C (1 : F) (by omega)
    rw [hz5, hT, hmon.natDegree_mul' hT0, show (X ^ cs.gates.length - 1 : F[X]).natDegree = cs.gates.length from natDegree_X_pow_sub_C (n := cs.gates.length) (r := (1 : F))] at h1
    omega
  have hm1 : 5 * cs.gates.length + 8 ≤ quotSize cs.gates.length := by
    unfold quotSize
    split <;> omega
  have hnumer : numerPoly root κ cs b.1 c.1 a.1 (fun j => toPoly (wq j)) (toPoly z) (toPoly pi) = (X ^ cs.gates.length - 1) * toPoly t := by
    rw [← hT, hz5]
    simp only [numerPoly, numer, gateForm, permForm, Finset.prod_range_succ, Finset.prod_range_zero, (hwq 0 (by omega)).2.2.2,
      (hwq 1 (by omega)).2.2.2, (hwq 2 (by omega)).2.2.2, (hwq 3 (by omega)).2.2.2, (hwq 4 (by omega)).2.2.2]
  obtain ⟨t', t1, t2, t3⟩ := C71_quotient s P.base1 rootM root κ cs D wq z pi b.1 c.1 a.1
    (fun j hj => ⟨(hwq j hj).2.1.1, le_trans (hwq j hj).2.2.1 (le_trans (by omega) hm1)⟩) ⟨z2.1, le_trans z3 (le_trans (by omega) hm1)⟩
    ⟨(interp_spec D _).2.1.1, le_trans (interp_spec D _).2.2.1 (le_trans (by omega) hm1)⟩ (toPoly t) hnumer
    (lt_of_lt_of_le (Nat.lt_succ_of_le hTd) hm1)
  have htt : t' = t := ((C57_equality t2 ht).2 t3)
  subst htt
  have htl : t'.length ≤ 5 * cs.gates.length + 8 := normal_length_le t2 hTd
  obtain ⟨ts, ts1, ts2, ts3, ts4⟩ := C60_split P msm hm d s t' coins.t (cs.gates.length + 2) (by omega) hd
    (by intro h; rw [h] at hct; simp at hct) (by rw [hct]; omega)
  rw [hct] at ts2 ts3
  have htsl : ∀ p ∈ ts, Normal p ∧ p.length ≤ cs.gates.length + 3 := fun p hp => ⟨(ts3 p hp).1, le_trans (ts3 p hp).2 (max_le (by omega) (by omega))⟩
  have hparts : ts.map toPoly = partPolys t' (cs.gates.length + 2) 0 coins.t 0 := by
    have := splitLoop_parts P msm t' (setup P d s) coins.t.length (cs.gates.length + 2) (by omega) coins.t 0 0 _ (by omega) ts1
    rw [List.map_map] at this
    exact this
  have hcmT' : ts.map (fun p => (toPoly p).eval s • P.base1) = cmT := by
    rw [← hcmT, ← hparts, List.map_map]; rfl
  have hζ : e.1 ^ cs.gates.length ≠ 1 := by rw [← he]; exact challenge_pow O _ _
  have h1 : e.1 ≠ 1 := by
    intro h
    rw [h, one_pow] at hζ
    exact hζ rfl
  set σ : Nat → F := fun j => (sigmaPoly root κ cs j).eval e.1 with hσ
  set w : Nat → F := fun j => (wp j).eval e.1 with hw
  set zEv := zp.eval (root * e.1) with hzEv
  set ch : Challenges F := ⟨b.1, c.1, a.1, e.1, u.1⟩ with hch
  have hTne : ts ≠ [] := by
    rintro rfl
    simp at ts2
  obtain ⟨r, r1, r2, r3⟩ := rPoly_eq s P.base1 rootM root κ cs w σ [] zEv ch z ts hTne
  have hrn : Normal r := rPoly_normal _ _ _ _ _ _ _ _ _ _ r r1 fun q hq => (qPolys_ne_nil s P.base1 cs rfl D q hq).1
  have hrd : (toPoly r).natDegree ≤ cs.gates.length + 2 := by
    rw [r2]
    refine rForm_natDegree _ _ _ _ _ _ _ _ _ _ _ _ _ _ _ ?_ (le_trans (natDegree_interp D _) (by omega))
      (le_trans (natDegree_interp D _) (by omega)) hzd ?_
    · intro q hq
      obtain ⟨q', hq', rfl⟩ := List.mem_map.1 hq
      exact le_trans (qPolys_ne_nil s P.base1 cs rfl D q' hq').2 (by omega)
    · intro q hq
      obtain ⟨q', hq', rfl⟩ := List.mem_map.1 hq
      have := natDegree_lt_length (htsl q' hq').1.1
      have := (htsl q' hq').2
      omega
  have hrl : r.length ≤ cs.gates.length + 3 := normal_length_le hrn hrd
  set piEv := (toPoly pi).eval e.1 with hpiEv
  set l1 := ∑ i ∈ Finset.range cs.gates.length, e.1 ^ i with hl1
  have hrv : (toPoly r).eval e.1 = rEvalForm w σ zEv ch piEv l1 := by
    have hmap := rForm_map (Polynomial.leval e.1) ((List.range 5).map w) ((List.range 5).map κ) ((List.range 4).map σ) zEv ch l1
      (e.1 ^ cs.gates.length - 1) (cs.gates.length + 2) (multOf w) (pk.qPolys.map toPoly) (toPoly pk.qbPoly) (sigmaPoly root κ cs 4) (toPoly z) (ts.map toPoly)
    have hq : (pk.qPolys.map toPoly).map (Polynomial.leval e.1) = (List.range 13).map fun j => (selPoly root cs j).eval e.1 := by
      simp [pk, pkOf, selectors, List.range_succ, selPoly]
    rw [hq] at hmap
    have hts : (ts.map toPoly).map (Polynomial.leval e.1) = ts.map fun p => (toPoly p).eval e.1 := by
      rw [List.map_map]; rfl
    rw [hts] at hmap
    have key := rForm_numer w κ σ (fun j => (selPoly root cs j).eval e.1) zEv ch l1 (e.1 ^ cs.gates.length - 1) (cs.gates.length + 2) ((boolPoly root cs).eval e.1)
      ((toPoly z).eval e.1) piEv (ts.map fun p => (toPoly p).eval e.1)
    have hnum : numer ch.beta ch.gamma ch.alpha (fun j => (selPoly root cs j).eval e.1) w κ σ ch.zeta ((toPoly z).eval e.1) zEv l1
        ((boolPoly root cs).eval e.1) piEv = (e.1 ^ cs.gates.length - 1) * (toPoly t').eval e.1 := by
      have := numerPoly_eval root κ cs b.1 c.1 a.1 wp zp (toPoly pi) e.1
      rw [hT, eval_mul, eval_sub, eval_pow, eval_X, eval_one] at this
      rw [hz5]
      exact this.symm
    have hcomb := ts4 e.1
    rw [hnum, show ch.zeta = e.1 from rfl, hcomb, add_sub_cancel_right] at key
    rw [r2]
    show (Polynomial.leval e.1) _ = _
    exact hmap.trans key
  obtain ⟨zc', zw, zo1, zo2, zo3⟩ := C59_open_complete P msm hm d (cs.gates.length + 2) s (root * e.1) z z2.1 (by omega) (by omega)
  rw [C59_commit P msm hm d s z z2.1, if_pos (by omega)] at zo1
  injection zo1 with zo1
  rw [← zo1, hz5, ← hzEv] at zo3
  have hS : pk.sPolys.take 4 = (List.range 4).map fun j => interp root cs.gates.length (sigmaColumn cs root κ j) :=
    map_range_take fun j => interp root cs.gates.length (sigmaColumn cs root κ j)
  set ps := (List.range 5).map wq ++ pk.sPolys.take 4 ++ [r] with hps0
  have hps : ∀ p ∈ ps, p ≠ [] ∧ p.length ≤ d + 1 := by
    intro p hp
    rw [hps0, List.append_assoc, List.mem_append, List.mem_append, List.mem_singleton, hS, List.mem_map, List.mem_map] at hp
    rcases hp with ⟨j, hj, rfl⟩ | ⟨j, -, rfl⟩ | rfl
    · have := hwq j (List.mem_range.1 hj)
      exact ⟨this.2.1.1, le_trans this.2.2.1 (by omega)⟩
    · exact ⟨(interp_spec D _).2.1.1, le_trans (interp_spec D _).2.2.1 (by omega)⟩
    · exact ⟨hrn.1, by omega⟩
  obtain ⟨cms, pw, tr', o0, o1, o2⟩ := C59_batch_complete P msm hm O.draw u.2 d (cs.gates.length + 2) s e.1 ps (by simp [ps]) hps
  obtain ⟨-, ho⟩ := commitAll_eq P msm hm d s ps (fun p h => (hps p h).1) cms o0
  have hsEv : (pk.sPolys.take 4).map (fun p => eval p e.1) = (List.range 4).map σ := by
    rw [hS, List.map_map]
    refine List.map_congr_left fun j _ => ?_
    simp only [Function.comp, C57_eval]
    rfl
  have hwEv : ((List.range 5).map wq).map (fun p => eval p e.1) = (List.range 5).map w := by
    rw [List.map_map]
    refine List.map_congr_left fun j hj => ?_
    simp only [Function.comp, C57_eval]
    rw [(hwq j (List.mem_range.1 hj)).2.2.2]
  refine ⟨pw, zw, ?_, ?_, ?_⟩
  · have hi2 : (ts.map fun p => ((toPoly p).eval s • P.base1, p)).map (·.2) = ts := by
      rw [List.map_map]
      conv_rhs => rw [← List.map_id ts]
      rfl
    have hi1 : (ts.map fun p => ((toPoly p).eval s • P.base1, p)).map (·.1) = cmT := by rw [List.map_map]; exact hcmT'
    have hzE : eval z (root * e.1) = zEv := by rw [C57_eval z, hz5]
    rw [List.append_nil] at r1
    have := prover_run O msm (setup P d s) lag tr cs pk wit coins online _ pi _ b c a e u (fromCoefs vals) (zp.eval s • P.base1, z) t' _
      (e.1 ^ cs.gates.length - 1, l1) r (pw, tr') zw hon hext hpi hwc (by rw [hcmm]; exact hb) hc (by rw [(perm_eq hwf).1]; exact v1) z1 ha
      (by rw [hwpl]; exact t1) ts1 (by rw [hi1]; exact he)
      (by rw [hwpl, hwEv, hsEv, show pk.vk.root = root from rfl, hzE]; exact hu)
      (by rw [C60_first_lagrange, if_neg h1])
      (by rw [hwpl, hwEv, hsEv, show pk.vk.root = root from rfl, hzE, hi2]; exact r1)
      (by rw [hwpl]; exact o1) zo2
    rw [this, hcmm, hi1, hwpl, hwEv, hsEv, show pk.vk.root = root from rfl, hzE]
  · intro ch' o
    have e1 : ps.map (fun p => (toPoly p).eval e.1) = (List.range 5).map w ++ (List.range 4).map σ ++
        [rEvalForm w σ zEv ch piEv l1] := by
      rw [← hrv, hps0, List.map_append, List.map_append, ← hsEv, ← hwEv]
      simp only [C57_eval, List.map_cons, List.map_nil]
    have e2 : ps.map (fun p => (toPoly p).eval s • P.base1) = cmW ++ pk.vk.cmS.take 4 ++ [(toPoly r).eval s • P.base1] := by
      have hcS : pk.vk.cmS.take 4 = (pk.sPolys.take 4).map fun p => (toPoly p).eval s • P.base1 := List.map_take.symm
      rw [hps0, List.map_append, List.map_append, hcS, List.map_map, ← hcmW']
      rfl
    rw [ho, e1, e2, ← r3, List.append_nil, hz5, hcmT'] at o2
    have := hP.separates _ ((verify_iff P d s _ _ _ _).1.1 o2)
    exact (sub_eq_zero.1 this).symm
  · exact (sub_eq_zero.1 (hP.separates _ ((verify_iff P d s _ _ _ _).1.1 zo3))).symm

/-- the prover panics when a denominator of the accumulator vanishes -/
theorem prover_describe_stop (P : Pairing F G1 G2 Gt) (msm : List F → List G1 → Res G1) (hm : MsmCorrect msm) (d : Nat)
    (s : F) (lag : Option (Params G1 G2)) (κ : Nat → F) (rootM root : F) (cs : CS F) (hwf : WF cs)
    (D : Domain cs.gates.length rootM root κ) (hd : cs.gates.length + 2 ≤ d) (hlag : LagrangeOk P s root cs.gates.length lag)
    (O : Oracle F G1 cs.gates.length) (tr : Tr F G1) (wit : List F) (hwit : wit.length = cs.numVars) (online : List F)
    (honline : cs.pubVars.map (fun v => wit[v]?.getD 0) = online)
    (coins : Coins F) (hcw : coins.w.length = 5) (hc2 : ∀ b ∈ coins.w, b.length = 2) (wp : Nat → F[X])
    (hwp : ∀ j, wp j = hidden root cs.gates.length (wireColumn cs wit j) (coins.w[j]?.getD [])) (cmW : List G1)
    (hcmW : (List.range 5).map (fun j => (wp j).eval s • P.base1) = cmW) (b c : F × Tr F G1)
    (hb : challenge O (initPlonk tr (pkOf s P.base1 rootM root κ cs).vk online ++ cmW.map .commitment) "beta" = b)
    (hc : challenge O b.2 "gamma" = c)
    (hbad : ∃ i < cs.gates.length - 1, zDen root κ (wireVal cs wit) (sigma cs) cs.gates.length b.1 c.1 i = 0) :
    prover O msm (setup P d s) lag tr false cs (pkOf s P.base1 rootM root κ cs) wit coins = .panic := by
  have hn := D.pos
  set pk := pkOf s P.base1 rootM root κ cs with hpk
  set W := wireVal cs wit with hWW
  have hcol : ∀ j, ∃ q, j < 5 → commitHidden msm (setup P d s) (useLagrange lag cs.gates.length) root cs.gates.length
      (slice ((List.range (5 * cs.gates.length)).map W) j cs.gates.length) (coins.w[j]?.getD []) = .ok ((toPoly q).eval s • P.base1, q) ∧
      toPoly q = wp j := by
    intro j
    by_cases hj : j < 5
    swap
    · exact ⟨[], fun h => absurd h hj⟩
    have hb : (coins.w[j]?.getD []).length = 2 := by
      rw [List.getElem?_eq_getElem (by omega), Option.getD_some]
      exact hc2 _ (List.getElem_mem _)
    obtain ⟨q, h1, h2, h3, -, h5⟩ := commitHidden_eq' P msm hm d s D lag hlag (slice ((List.range (5 * cs.gates.length)).map W) j cs.gates.length)
      (coins.w[j]?.getD []) (by rw [slice_eq W cs.gates.length j hj]; intro h; have := congrArg List.length h; rw [List.length_map, List.length_range, List.length_nil] at this; omega)
      (by rw [slice_eq W cs.gates.length j hj]; simp) (by rw [hb]; omega)
    refine ⟨q, fun _ => ⟨h1, ?_⟩⟩
    rw [h5, hwp, slice_eq W cs.gates.length j hj]
    rfl
  choose wq hwq using hcol
  have hcmW' : (List.range 5).map (fun j => (toPoly (wq j)).eval s • P.base1) = cmW := by
    rw [← hcmW]
    exact List.map_congr_left fun j hj => by rw [(hwq j (List.mem_range.1 hj)).2]
  have hon : cs.pubVars.mapM (index wit) = .ok online := by
    rw [← honline]
    refine mapM_ok _ _ _ fun v hv => index_ok ?_
    have := pubVars_lt hwf v hv
    rw [List.getElem?_eq_getElem (by omega)]; rfl
  have hext : Res.unwrap (extendWitness cs.wiring wit) = .ok ((List.range (5 * cs.gates.length)).map W) := by rw [extend_eq hwf wit hwit]; rfl
  have hpi := piPoly_eq s P.base1 rootM root κ cs hwf D online (by rw [hwf.len, ← honline]; simp)
  have hwc : coins.w.zipIdx.mapM (fun b => commitHidden msm (setup P d s) (useLagrange lag cs.gates.length) root cs.gates.length
      (slice ((List.range (5 * cs.gates.length)).map W) b.2 cs.gates.length) b.1) =
      .ok ((List.range 5).map fun j => ((toPoly (wq j)).eval s • P.base1, wq j)) := by
    rw [mapM_ok _ (fun b => ((toPoly (wq b.2)).eval s • P.base1, wq b.2))]
    · have : (List.range 5) = coins.w.zipIdx.map (·.2) := by
        rw [List.zipIdx_map_snd, hcw]; rfl
      rw [this, List.map_map]; rfl
    · intro b hb
      have hb' := List.mem_zipIdx_iff_getElem?.1 hb
      have hlt := (List.getElem?_eq_some_iff.1 hb').1
      have := (hwq b.2 (by omega)).1
      rw [hb', Option.getD_some] at this
      exact this
  have hcmm : ((List.range 5).map fun j => ((toPoly (wq j)).eval s • P.base1, wq j)).map (·.1) = cmW := by
    rw [List.map_map]; exact hcmW'
  refine prover_stop O msm (setup P d s) lag tr cs pk wit coins online _ _ _ b c hon hext hpi hwc (by rw [hcmm]; exact hb) hc ?_
  rw [(perm_eq hwf).1]
  exact (C60_z_poly root κ W (sigma cs) cs.gates.length b.1 c.1 hn (perm_eq hwf).2).2 hbad

end Verif.Snark
