import Verif.Setup.ShippedConvFiles

/-!
C102: the keys of the four conversions that are shipped with the library.
-/

namespace Verif.Setup

open Verif.Poly Verif.Plonk Verif.Snark Verif.Anon
open Verif.AnonCreds (Pairing)

theorem checkConversion_some {b : Bytes} {vars size : Nat} {pub : List Nat} (h : checkConversion b vars size pub = true) :
    ∃ v, rawBin.de b = some v ∧ v.pcs.group1.length = 1 ∧ v.pcs.group2.length = 2 ∧ describes vars size pub v.cs v.vk = true := by
  unfold checkConversion at h
  cases hb : rawBin.de b with
  | none => rw [hb] at h; simp at h
  | some v =>
    rw [hb] at h
    simp only [Bool.and_eq_true, beq_iff_eq] at h
    exact ⟨v, rfl, h.1.1, h.1.2, h.2⟩

variable {G1 G2 Gt : Type} [AddCommGroup G1] [AddCommGroup G2] [Module Fr G1] [Module Fr G2] [AddCommGroup Gt] [Module Fr Gt]
  [DecidableEq Gt]

/-- C102: each of the four files is read as a key that agrees with the one setup makes from the circuit of the code, whatever the honest
reference string, in everything but the points.  Missing for the full claim: that the commitments to the selectors and permutations are
those of the circuit, which depends on the shipped reference string. -/
theorem C102_conversions_partial {P : Pairing Fr G1 G2 Gt} {E : Env Fr G1 G2} {d : Nat} {s : Fr} (H : HonestEnv P E d s)
    (hd : 32770 ≤ d) (dbg : Bool) (pk : Anon.PK Fr) :
    ∀ x ∈ [(arToAbarFile, E.proverLast (arToAbarCs Rescue.blsParams pk)),
        (barToAbarFile, E.proverFirst (barToAbarCs Rescue.blsParams dbg SimFr.ristretto pk)),
        (abarToArFile, E.proverLast (abarToArCs Rescue.blsParams dbg SimFr.secq256k1 secpOrderBytes 20)),
        (abarToBarFile, E.proverLast (abarToBarCs Rescue.blsParams dbg SimFr.secq256k1 SimFr.ristretto secpOrderBytes 20))],
      ∃ v q w, (∀ fallback, loadConversion rawBin (some x.1) fallback = .ok v) ∧ x.2 = .ok q ∧ (VerifierParams.ofProver q).shrink = .ok w ∧
        Spec.Agrees v w := by
  obtain ⟨⟨c1, e1, z1⟩, ⟨c2, e2, z2⟩, ⟨c3, e3, z3⟩, ⟨c4, e4, z4⟩⟩ := C93_setup_conversions dbg pk
  have fin : ∀ (file : Bytes) (par : Res (ProverParams Fr G1 G2)) (c : CS Fr), WF c → ∀ e ≤ 15, c.gates.length = 2 ^ e →
      (par = E.proverFirst (some c) ∨ par = E.proverLast (some c)) →
      checkConversion file c.numVars c.gates.length c.pubCons = true →
      ∃ v q w, (∀ fallback, loadConversion rawBin (some file) fallback = .ok v) ∧ par = .ok q ∧
        (VerifierParams.ofProver q).shrink = .ok w ∧ Spec.Agrees v w := by
    intro file par c hwf e he hsz hpar hc
    have h15 : 2 ^ e ≤ 2 ^ 15 := Nat.pow_le_pow_right (by norm_num) he
    obtain ⟨q, w, h1, h2, h3, h4⟩ := H.agrees c hwf e he hsz (by rw [hsz]; omega)
    obtain ⟨v, hv, l1, l2, hv'⟩ := checkConversion_some hc
    refine ⟨v, q, w, fun fallback => ?_, ?_, h3, h4 v l1 l2 hv'⟩
    · rw [loadConversion, hv]
      rfl
    · rcases hpar with h | h
      · rw [h, h1]
      · rw [h, h2]
  refine List.forall_mem_cons.mpr ⟨?_, List.forall_mem_cons.mpr ⟨?_, List.forall_mem_cons.mpr ⟨?_, List.forall_mem_singleton.mpr ?_⟩⟩⟩
  · have e := e1
    rw [arToAbarCs, Option.map_eq_some_iff] at e
    obtain ⟨⟨vars, cs⟩, hb, rfl⟩ := e
    obtain ⟨z, y, x⟩ := C93_ar_to_abar _ bls_rounds _ vars cs hb
    refine fin _ _ cs (wf_arToAbar hb) 9 (by norm_num) z (.inr (by rw [e1])) ?_
    rw [x, y, z]
    exact arToAbarFile_check
  · have e := e2
    rw [barToAbarCs, Option.map_eq_some_iff] at e
    obtain ⟨⟨vars, cs⟩, hb, rfl⟩ := e
    obtain ⟨z, y, x⟩ := C93_bar_to_abar _ bls_rounds _ _ _ vars cs hb
    refine fin _ _ cs (wf_barToAbar hb) 11 (by norm_num) z (.inl (by rw [e2])) ?_
    rw [x, y, z]
    exact barToAbarFile_check
  · have e := e3
    rw [abarToArCs, Option.map_eq_some_iff] at e
    obtain ⟨⟨vars, cs⟩, hb, rfl⟩ := e
    obtain ⟨z, y, x⟩ := C93_abar_to_ar _ bls_rounds _ _ _ (by simp [fakePayer]) _ _ vars cs hb
    refine fin _ _ cs (wf_abarToAr hb) 13 (by norm_num) z (.inr (by rw [e3])) ?_
    rw [x, y, z]
    exact abarToArFile_check
  · have e := e4
    rw [abarToBarCs, Option.map_eq_some_iff] at e
    obtain ⟨⟨vars, cs⟩, hb, rfl⟩ := e
    obtain ⟨z, y, x⟩ := C93_abar_to_bar _ bls_rounds _ _ _ (by simp [fakePayer]) _ _ _ vars cs hb
    refine fin _ _ cs (wf_abarToBar hb) 13 (by norm_num) z (.inr (by rw [e4])) ?_
    rw [x, y, z]
    exact abarToBarFile_check

/-- the hypotheses are met by the reference string of C94: the public inputs of the shipped key are those of the circuit -/
example : ∃ v q, rawBin.de arToAbarFile = some v ∧ envFr.proverLast (arToAbarCs Rescue.blsParams (defaultPk Fr)) = .ok q ∧
    v.vk.pubCons = q.cs.pubCons ∧ v.vk.pubCons = [0, 1, 298] := by
  obtain ⟨v, hv, -, -, hd⟩ := checkConversion_some arToAbarFile_check
  obtain ⟨v', q, w, h1, h2, h3, h4⟩ := (List.forall_mem_cons.mp (C102_conversions_partial envFr_honest le_rfl true (defaultPk Fr))).1
  have e : v' = v := by
    have := h1 (.err)
    rw [loadConversion, hv] at this
    exact (Res.ok.inj this).symm
  subst e
  obtain ⟨cs, hcs, -⟩ := (C93_setup_conversions true (defaultPk Fr)).1
  refine ⟨v', q, hv, h2, ?_, ?_⟩
  · have a := h4.pubCons
    have h2' : envFr.proverLast (arToAbarCs Rescue.blsParams (defaultPk Fr)) = .ok q := h2
    rw [hcs] at h2'
    rw [arToAbarCs, Option.map_eq_some_iff] at hcs
    obtain ⟨⟨vars, cs'⟩, hb, rfl⟩ := hcs
    obtain ⟨z, -, -⟩ := C93_ar_to_abar _ bls_rounds _ vars cs' hb
    obtain ⟨lag, -, rootM, -, -, -, p2⟩ := envFr_honest.params cs' (wf_arToAbar hb) 9 (by norm_num) z
      (by rw [show cs'.gates.length = 512 from z]; norm_num)
    obtain rfl := Res.ok.inj (p2.symm.trans h2')
    rw [VerifierParams.shrink] at h3
    obtain ⟨pcs, -, hw⟩ := Res.bind_eq_ok.mp h3
    simp only [Res.pure_eq, Res.ok.injEq] at hw
    subst hw
    exact a
  · simp only [describes, Bool.and_eq_true, beq_iff_eq] at hd
    exact hd.1.1.2

end Verif.Setup
