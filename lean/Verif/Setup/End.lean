import Verif.Setup.Props
import Verif.Setup.FileCodec
import Verif.Snark.Complete
import Verif.Anon.ConvertEndExamples
import Verif.Anon.XfrNoteExamples

/-!
C88, end to end: proofs made with the parameters of the prover are accepted with the parameters that a verifier loads from the
files; and cases that meet the hypotheses of C88.
-/

namespace Verif.Setup

open Verif.Poly Verif.Plonk Verif.Snark Verif.Anon
open Verif.AnonCreds (Pairing)

section
variable {F G1 G2 Gt : Type} [Field F] [DecidableEq F] [AddCommGroup G1] [AddCommGroup G2] [Module F G1] [Module F G2] [AddCommGroup Gt]
  [Module F Gt] [DecidableEq Gt]

omit [DecidableEq F] [Module F G2] [AddCommGroup G2] in
theorem powersLoop_length (s : F) (n : Nat) (g : G1) : (powersLoop s n g).length = n := by
  induction n generalizing g with
  | zero => rfl
  | succ n ih => rw [powersLoop, List.length_cons, ih]

/-- the parameters of the prover, from the bytes of an honest reference string -/
theorem proverFirst_ok (P : Pairing F G1 G2 Gt) (E : Env F G1 G2) (hm : MsmCorrect E.msm) (L1 : E.raw1.Laws) (L2 : E.raw2.Laws)
    (d : Nat) (hd32 : d + 1 < 2 ^ 32) (s : F) (t : Bytes) (hsrs : E.srs = some (toUnchecked E.raw1 E.raw2 (setup P d s) ++ t))
    (κ : Nat → F) (hk : E.k = (List.range 5).map κ) (cs : CS F) (lag : Option (Params G1 G2))
    (hl : loadLagrange E.raw1 E.bases cs.gates.length = .ok lag) (rootM root : F) (hwf : WF cs)
    (D : Domain cs.gates.length rootM root κ) (hd : cs.gates.length + 2 ≤ d)
    (hroot : E.rootOf (quotSize cs.gates.length) = .ok (some rootM)) (hlag : LagrangeOk P s root cs.gates.length lag) :
    E.proverFirst (some cs) = .ok ⟨setup P d s, lag, cs, pkOf s P.base1 rootM root κ cs⟩ := by
  have hr := C88_key_roundtrip L1 L2 (setup P d s) (by rw [setup, powersLoop_length]; exact hd32) (by simp [setup]) t
  have hi := C60_indexer P E.msm hm d s lag E.rootOf κ rootM root cs hwf D (by omega) hroot hlag
  rw [Env.proverFirst, hsrs, Res.ofOption_some, Res.bind_ok, Res.unwrap_some, Res.bind_ok, Env.finish, hr, Res.bind_ok, hl,
    Res.bind_ok, hk, hi]
  rfl

/-- C88: with the bytes of an honest reference string, proofs of true statements made with the parameters of `ProverParams::new`
are accepted with the parameters that `VerifierParams::load` reads from the files of `gen_transfer_vk`, for one to six inputs and
outputs; the exception is that of C71. -/
theorem C88_files_complete (P : Pairing F G1 G2 Gt) (hP : NonDegenerate P) (E E' : Env F G1 G2) (hm : MsmCorrect E.msm)
    (L1 : E.raw1.Laws) (L2 : E.raw2.Laws) (d : Nat) (hd32 : d + 1 < 2 ^ 32) (s : F) (t : Bytes)
    (hsrs : E.srs = some (toUnchecked E.raw1 E.raw2 (setup P d s) ++ t)) (κ : Nat → F) (hk : E.k = (List.range 5).map κ)
    (B : FileBins F G1 G2) (hc : B.common.Lawful) (hs : B.specific.Lawful) (ht : B.table.Lawful)
    (circuit circuit' : Nat → Nat → Nat → Option (CS F)) (common specific : Bytes)
    (hgen : E.genTransfer B circuit = .ok (common, specific))
    (payers payees : Nat) (h1 : 1 ≤ payers) (h2 : payers ≤ 6) (h3 : 1 ≤ payees) (h4 : payees ≤ 6)
    (cs : CS F) (hcs : circuit payers payees 20 = some cs) (lag : Option (Params G1 G2))
    (hl : loadLagrange E.raw1 E.bases cs.gates.length = .ok lag) (rootM root : F) (hwf : WF cs)
    (D : Domain cs.gates.length rootM root κ) (hd : cs.gates.length + 2 ≤ d)
    (hroot : E.rootOf (quotSize cs.gates.length) = .ok (some rootM)) (hlag : LagrangeOk P s root cs.gates.length lag)
    (wit : List F) (hwit : wit.length = cs.numVars)
    (hsat : Spec.Sat cs (fun v => wit[v]?.getD 0) (cs.pubVars.map fun v => wit[v]?.getD 0))
    (coins : Coins F) (hcw : coins.w.length = 5) (hc2 : ∀ b ∈ coins.w, b.length = 2) (hcz : coins.z.length = 3)
    (hct : coins.t.length = 5) :
    ∃ (q : ProverParams F G1 G2) (w : VerifierParams F G1 G2) (cmW : List G1), E.proverFirst (circuit payers payees 20) = .ok q ∧ E'.load B circuit' (some common) (some specific) payers payees = .ok w ∧
      ∃ hw : w.cs.size = cs.gates.length, ∀ (O : Oracle F G1 cs.gates.length) (tr : Tr F G1),
      (let online := cs.pubVars.map fun v => wit[v]?.getD 0
       let b := challenge O (initPlonk tr q.pk.vk online ++ cmW.map .commitment) "beta"
       let c := challenge O b.2 "gamma"
       (∀ i < cs.gates.length - 1, zDen root κ (wireVal cs wit) (sigma cs) cs.gates.length b.1 c.1 i ≠ 0) →
          ∃ pf, prover O E.msm q.pcs q.lagrange tr false q.cs q.pk wit coins = .ok pf ∧ w.verify hw O P tr online pf = .ok ()) := by
  have hq := proverFirst_ok P E hm L1 L2 d hd32 s t hsrs κ hk cs lag hl rootM root hwf D hd hroot hlag
  obtain ⟨v, w, hv, hvw, hload⟩ := C88_load E E' B hc hs ht circuit circuit' common specific hgen payers payees h1 h2 h3 h4
  obtain ⟨pk, cmW, e1, -, e2⟩ := C71_complete P hP E.msm hm d s lag E.rootOf κ rootM root cs hwf D hd hroot hlag wit hwit hsat
    coins hcw hc2 hcz hct
  rw [C60_indexer P E.msm hm d s lag E.rootOf κ rootM root cs hwf D (by omega) hroot hlag] at e1
  obtain rfl := Res.ok.inj e1
  have hv' : v = .ofProver ⟨setup P d s, lag, cs, pkOf s P.base1 rootM root κ cs⟩ := by
    rw [Env.create, Option.getD_some, hcs, hq, Res.bind_ok] at hv
    exact (Res.ok.inj hv).symm
  subst hv'
  have hsz := (C88_shrink_keeps _ _ hvw).2.1
  refine ⟨⟨setup P d s, lag, cs, pkOf s P.base1 rootM root κ cs⟩, w, cmW, by rw [hcs, hq], hload, hsz, fun O tr hz => ?_⟩
  obtain ⟨pf, f1, -, f2⟩ := (e2 O tr).2 hz
  refine ⟨pf, f1, ?_⟩
  exact (C88_shrink_verifies _ _ hvw rfl hsz O P tr _ pf).trans f2

end

/-! ### The hypotheses are met -/

/-- elements of the field of order 97 in one byte -/
def raw97 : Raw (ZMod 97) := ⟨1, fun x => [UInt8.ofNat x.val], fun b => b.head?.map fun c => (c.toNat : ZMod 97)⟩

theorem raw97_laws : raw97.Laws := ⟨fun _ => rfl, by decide +kernel⟩

/-- the same as `zei_to_bytes` and `zei_from_bytes` -/
def obj97 : Obj (ZMod 97) := ⟨raw97.ser, fun b => Res.ofOption (raw97.de b)⟩

theorem obj97_laws : obj97.Laws := ⟨by decide +kernel, fun _ => by simp [obj97, raw97]⟩

/-- the reference string of degree 4 with secret 9, no Lagrange bases -/
def env97 : Env (ZMod 97) (ZMod 97) (ZMod 97) where
  srs := some (toUnchecked raw97 raw97 (setup pairing97 4 9) ++ [1, 2, 3])
  bases := fun _ => none
  raw1 := raw97
  raw2 := raw97
  msm := msm97
  rootOf := rootOf97
  k := (List.range 5).map κ97

example : toUnchecked raw97 raw97 (setup pairing97 4 9) = [5, 0, 0, 0, 2, 0, 0, 0, 1, 9, 81, 50, 62, 1, 9] := by decide +kernel

example : fromUnchecked raw97 raw97 [5, 0, 0, 0, 2, 0, 0, 0, 1, 9, 81, 50] = .panic :=
  C88_key_panics_violated raw97 raw97 _ (by decide) (by decide)

example : loadLagrange (G2 := ZMod 97) raw97 (fun n => if n = 2 then some [2, 0, 0, 0, 45, 53] else none) 2 = .ok (some ⟨[45, 53], []⟩) :=
  (C88_lagrange raw97_laws _ 2).2 [45, 53] [] (by decide) (by decide +kernel)

/-- files can be made, with the circuit of one square for all numbers; proofs for it, made with the parameters of the prover, are
accepted with those loaded from the files -/
example : ∃ (B : FileBins (ZMod 97) (ZMod 97) (ZMod 97)) (common specific : Bytes),
    B.common.Lawful ∧ B.specific.Lawful ∧ B.table.Lawful ∧ env97.genTransfer B (fun _ _ _ => some square97) = .ok (common, specific) ∧
    env97.load B (fun _ _ _ => none) (some common) (some specific) 0 3 = .panic ∧
    ∀ (tr : Tr (ZMod 97) (ZMod 97)) (a b : ZMod 97), ∃ q w pf,
      env97.proverFirst (some square97) = .ok q ∧ env97.load B (fun _ _ _ => none) (some common) (some specific) 2 3 = .ok w ∧
      ∃ hw : w.cs.size = 2,
        prover oracle97' env97.msm q.pcs q.lagrange tr false q.cs q.pk [0, 1, 5, 25]
          ⟨List.replicate 5 [a, b], [b, a, b], [a, a, b, b, a]⟩ = .ok pf ∧ w.verify hw oracle97' pairing97 tr [5] pf = .ok () := by
  obtain ⟨-, -, h1, h2, h3, hw⟩ := C101_lawful obj97 obj97 obj97 obj97_laws obj97_laws obj97_laws
  have hq := proverFirst_ok pairing97 env97 msm97_correct raw97_laws raw97_laws 4 (by decide) 9 [1, 2, 3] rfl κ97 rfl square97 none rfl 28
    (28 ^ 16) square97_wf domain97 (by decide) rfl (by intro lp h; cases h)
  obtain ⟨⟨common, specific⟩, hgen⟩ := genTransfer_ok env97 (transferBins obj97 obj97 obj97) hw (fun _ _ _ => some square97)
    (fun _ _ => .ofProver ⟨setup pairing97 4 9, none, square97, pkOf 9 pairing97.base1 28 (28 ^ 16) κ97 square97⟩) (by
      intro i j _ _ _ _
      rw [Env.create, hq]
      rfl) ⟨[1], [1, 9]⟩ rfl (by simp [keyFits]) (fun _ _ _ _ _ _ => ⟨⟨_, _, rfl, by decide⟩, by decide +kernel, by decide +kernel,
        by decide +kernel, by decide +kernel, by decide +kernel, by decide +kernel, by decide +kernel⟩)
  refine ⟨transferBins obj97 obj97 obj97, common, specific, h1, h2, h3, hgen, ?_, fun tr a b => ?_⟩
  · exact C88_load_zero_violated env97 env97 (transferBins obj97 obj97 obj97) h1 h3 _ _ _ _ hgen 0 3 (by omega) (by omega) (.inl rfl)
  obtain ⟨q, w, cmW, e1, e2, hw, e3⟩ := C88_files_complete pairing97 pairing97_nonDegenerate env97 env97 msm97_correct raw97_laws raw97_laws
    4 (by decide) 9 [1, 2, 3] rfl κ97 rfl (transferBins obj97 obj97 obj97) h1 h2 h3 (fun _ _ _ => some square97) (fun _ _ _ => none) common specific hgen 2 3
    (by omega) (by omega) (by omega) (by omega) square97 rfl none rfl 28 (28 ^ 16) square97_wf domain97 (by decide) rfl
    (by intro lp h; cases h) [0, 1, 5, 25] rfl square97_sat
    ⟨List.replicate 5 [a, b], [b, a, b], [a, a, b, b, a]⟩ rfl (by simp) rfl rfl
  obtain ⟨pf, f1, f2⟩ := e3 oracle97' tr (by
    intro i hi
    have : i = 0 := by simp [square97] at hi; exact hi
    subst this
    show zDen (28 ^ 16) κ97 (wireVal square97 [0, 1, 5, 25]) (sigma square97) 2 2 2 0 ≠ 0
    decide +kernel)
  exact ⟨q, w, pf, e1, e2, hw, f1, f2⟩

/-- the circuits of the conversions, over the hash, the fields and the parameters of the code, for the records of the examples of
C73 and C75 to C76: they exist, and have the keys of the circuits of setup.rs -/
example (pk : Anon.PK (ZMod Bls.r)) : ∃ vars cs cs0, buildArToAbar Rescue.blsParams samplePayee CS.new = some (vars, cs) ∧
    arToAbarCs Rescue.blsParams pk = some cs0 ∧ SameKeys cs cs0 := by
  have hp := goodBls
  generalize Rescue.blsParams = p at hp
  obtain ⟨vars, cs, hb, -, -⟩ := C73_ar_to_abar_complete p hp samplePayee
  obtain ⟨cs0, h1, h2⟩ := C88_ar_to_abar_keys p pk samplePayee vars cs hb
  exact ⟨vars, cs, cs0, hb, h1, h2⟩

example (pk : Anon.PK (ZMod Bls.r)) : ∃ comm payee vars cs cs0,
    buildBarToAbar Rescue.blsParams true SimFr.ristretto payee (sampleInsp comm) CS.new = some (vars, cs) ∧
    barToAbarCs Rescue.blsParams true SimFr.ristretto pk = some cs0 ∧ SameKeys cs cs0 := by
  obtain ⟨comm, hh⟩ := sampleInsp_honest
  have hp := goodBls
  generalize Rescue.blsParams = p at hp hh
  obtain ⟨vars, cs, input, hb, -⟩ := C75_bar_to_abar_complete p hp true SimFr.ristretto ristretto_insp (sampleInsp comm) 7 9 hh 1 samplePk
  obtain ⟨cs0, h1, h2⟩ := C88_bar_to_abar_keys p true _ ristretto_insp pk _ _ hh.consistent vars cs hb
  exact ⟨comm, _, vars, cs, cs0, hb, h1, h2⟩

/-- from a tree of depth one, as in the examples of C74 and C76 -/
example : ∃ comm icomm s vars cs vars' cs' cs0 cs1,
    buildAbarToAr Rescue.blsParams (foldingCircuit Rescue.blsParams true SimFr.secq256k1 secpOrderBytes (sampleFold comm)) s
      (Spec.pkWords 5 7) (Spec.skWords 3) CS.new = some (vars, cs) ∧
    abarToArCs Rescue.blsParams true SimFr.secq256k1 secpOrderBytes s.path.length = some cs0 ∧ SameKeys cs cs0 ∧
    buildAbarToBar Rescue.blsParams (foldingCircuit Rescue.blsParams true SimFr.secq256k1 secpOrderBytes (sampleFold comm)) true SimFr.ristretto
      s (Spec.pkWords 5 7) (Spec.skWords 3) (sampleInsp icomm) CS.new = some (vars', cs') ∧
    abarToBarCs Rescue.blsParams true SimFr.secq256k1 SimFr.ristretto secpOrderBytes s.path.length = some cs1 ∧ SameKeys cs' cs1 := by
  obtain ⟨comm, hh⟩ := sampleFold_honest
  obtain ⟨icomm, hi⟩ := sampleInsp_honest
  have hp := goodBls
  generalize Rescue.blsParams = p at hp hh hi
  obtain ⟨t, q, ht, hroot, hpr, hlen, hgood, hcur, hcap⟩ := sampleTree p
  obtain ⟨vars, cs, foldPub, hb, -⟩ := C74_abar_to_ar_complete p hp true SimFr.secq256k1 secq_fold secpOrderBytes secpOrder_ok.1
    (sampleFold comm) hh (foldPayer q.nodes) q.root hgood hpr
  obtain ⟨vars', cs', input, foldPub', hb', -⟩ := C76_abar_to_bar_complete p hp true SimFr.secq256k1 SimFr.ristretto secq_fold
    ristretto_insp secpOrderBytes secpOrder_ok.1 (sampleFold comm) hh (sampleInsp icomm) 7 9 hi (foldPayer q.nodes) q.root
    rfl rfl hgood hpr
  have hr : 1 < SimFr.secq256k1.r := by decide +kernel
  obtain ⟨cs0, h1, h2⟩ := C88_abar_to_ar_keys p true _ secq_fold hr _ _ hh.consistent _ _ _ vars cs hb
  obtain ⟨cs1, h3, h4⟩ := C88_abar_to_bar_keys p true _ _ secq_fold hr ristretto_insp _ _ hh.consistent _ hi.consistent _ _ _ vars' cs' hb'
  exact ⟨comm, icomm, foldPayer q.nodes, vars, cs, vars', cs', cs0, cs1, hb, h1, h2, hb', h3, h4⟩

/-- transfers with any numbers of inputs and outputs, depth twenty -/
example (n m : Nat) : ∃ comm vars cs cs0,
    buildMultiXfr Rescue.blsParams (foldingCircuit Rescue.blsParams true SimFr.secq256k1 secpOrderBytes (sampleFold comm))
      (List.replicate (n + 1) blank) (List.replicate (m + 1) blankOut) (Spec.pkWords 5 7) (Spec.skWords 3) ((0 : Nat) : ZMod Bls.r)
      ((9 : Nat) : ZMod Bls.r) CS.new = some (vars, cs) ∧
    transferCs Rescue.blsParams true SimFr.secq256k1 secpOrderBytes ((9 : Nat) : ZMod Bls.r) (n + 1) (m + 1) 20 = some cs0 ∧
    SameKeys cs cs0 := by
  obtain ⟨comm, hh⟩ := sampleFold_honest
  have hp := goodBls
  generalize Rescue.blsParams = p at hp hh
  obtain ⟨vars, cs, hb⟩ := blank_circuit p hp comm hh n m
  have hr : 1 < SimFr.secq256k1.r := by decide +kernel
  obtain ⟨cs0, h1, h2⟩ := C88_transfer_keys p true _ secq_fold hr _ _ _ hh.consistent _ _ 20 (by
    intro s hs
    obtain rfl := List.eq_of_mem_replicate hs
    rfl) _ _ _ vars cs hb
  rw [List.length_replicate, List.length_replicate] at h1
  exact ⟨comm, vars, cs, cs0, hb, h1, h2⟩

end Verif.Setup
