import Verif.Setup.Real
import Verif.Anon.XfrNoteGen

/-!
C94, second part: with an honest reference string for BLS12-381 all parameters are made, and notes made with them are accepted with
the parameters that a verifier loads.  Nothing is assumed of PLONK: the prover and the verifier are those of Snark/Model.lean.
-/

namespace Verif.Setup

open Verif.Poly Verif.Plonk Verif.Snark Verif.Anon
open Verif.Plonk.Spec (Sat)
open Verif.Anon.Spec (Fit info)
open Verif.AnonCreds (Pairing)

abbrev Fr := ZMod Bls.r

section
variable {G1 G2 Gt : Type} [AddCommGroup G1] [AddCommGroup G2] [Module Fr G1] [Module Fr G2] [AddCommGroup Gt] [Module Fr Gt]
  [DecidableEq Gt]

/-- the points of a file with a Lagrange basis (api/parameters/lagrange-srs-*.bin) -/
noncomputable def basisPoints (P : Pairing Fr G1 G2 Gt) (s : Fr) (n : Nat) : List G1 :=
  (List.range n).map fun i => ((Lagrange.basis (Finset.range n) (fun i => blsRoot n ^ i) i).eval s) • P.base1

/-- What is embedded and called is honest: the reference string has the powers of `s` up to `d`, the files with Lagrange bases hold
those of `s`, the multi-exponentiation and the exponentiation of the curve library are correct, points are read as they were
written, and the representatives are those of the shipped keys. -/
structure HonestEnv (P : Pairing Fr G1 G2 Gt) (E : Env Fr G1 G2) (d : Nat) (s : Fr) : Prop where
  msm : MsmCorrect E.msm
  raw1 : E.raw1.Laws
  raw2 : E.raw2.Laws
  small : d + 1 < 2 ^ 32
  srs : ∃ t, E.srs = some (toUnchecked E.raw1 E.raw2 (setup P d s) ++ t)
  root : ∃ arkPow, (∀ x l, arkPow x l = x ^ Nat.ofDigits (2 ^ 64) l) ∧ E.rootOf = primitiveRoot Bls.r 7 (blsPow arkPow)
  reps : E.k = (List.range 5).map kappa
  bases : ∀ n b, E.bases n = some b → 0 < n ∧ n < 2 ^ 32 ∧
    ∃ t, b = leBytes 4 n ++ (basisPoints P s n).flatMap E.raw1.ser ++ t

/-- the parameters of a circuit -/
theorem HonestEnv.params {P : Pairing Fr G1 G2 Gt} {E : Env Fr G1 G2} {d : Nat} {s : Fr} (H : HonestEnv P E d s) (cs : CS Fr)
    (hwf : WF cs) (e : Nat) (he : e ≤ 29) (hsz : cs.gates.length = 2 ^ e) (hd : cs.gates.length + 2 ≤ d) :
    ∃ lag, LagrangeOk P s (blsRoot cs.gates.length) cs.gates.length lag ∧
      (∃ rootM, Domain cs.gates.length rootM (blsRoot cs.gates.length) kappa ∧ E.rootOf (quotSize cs.gates.length) = .ok (some rootM) ∧
      E.proverFirst (some cs) = .ok ⟨setup P d s, lag, cs, pkOf s P.base1 rootM (blsRoot cs.gates.length) kappa cs⟩ ∧
      E.proverLast (some cs) = .ok ⟨setup P d s, lag, cs, pkOf s P.base1 rootM (blsRoot cs.gates.length) kappa cs⟩) := by
  obtain ⟨arkPow, hark, hroot⟩ := H.root
  obtain ⟨t, hsrs⟩ := H.srs
  obtain ⟨r1, D⟩ := C94_domain arkPow hark e he
  have hl : ∃ lag, loadLagrange E.raw1 E.bases cs.gates.length = .ok lag ∧ LagrangeOk P s (blsRoot cs.gates.length) cs.gates.length lag := by
    cases hb : E.bases cs.gates.length with
    | none => exact ⟨none, (C88_lagrange H.raw1 _ _).1 hb, fun lp h => by cases h⟩
    | some b =>
      obtain ⟨h0, h1, t', ht⟩ := H.bases _ _ hb
      subst ht
      have hlen : (basisPoints P s cs.gates.length).length = cs.gates.length := by simp [basisPoints]
      refine ⟨some ⟨basisPoints P s cs.gates.length, []⟩,
        (C88_lagrange H.raw1 _ _).2 _ t' (by rw [hlen]; exact h1) (by rw [hb, hlen]), fun lp h => ?_⟩
      obtain rfl := Option.some.inj h
      refine ⟨fun h => ?_, fun _ => ?_⟩
      · have := congrArg List.length h
        rw [hlen, List.length_nil] at this
        omega
      · rfl
  obtain ⟨lag, hl, hok⟩ := hl
  rw [← hsz] at D r1
  have hr : E.rootOf (quotSize cs.gates.length) = .ok (some (blsRoot (quotSize cs.gates.length))) := by rw [hroot]; exact r1
  have hq := proverFirst_ok P E H.msm H.raw1 H.raw2 d H.small s t hsrs kappa H.reps cs lag hl _ _ hwf D hd hr hok
  refine ⟨lag, hok, _, D, hr, hq, ?_⟩
  rw [← hq, Env.proverFirst, Env.proverLast, hsrs]
  rfl


/-! ### PLONK with these parameters -/

/-- five pairs, three and five random values: what one proof needs -/
structure GoodCoins (c : Coins Fr) : Prop where
  w : c.w.length = 5
  pairs : ∀ b ∈ c.w, b.length = 2
  z : c.z.length = 3
  t : c.t.length = 5

/-- the random oracle behind the transcript, for systems of all sizes up to `2 ^ 32`; `Oracle` is for one size -/
structure Source (G1 : Type) where
  draw : Tr Fr G1 → Nat → Fr
  live : ∀ tr n, 0 < n → n ≤ 2 ^ 32 → ∃ i, draw tr i ^ n ≠ 1

def Source.sized {G1 : Type} (O : Source G1) (n : Nat) (h : 0 < n ∧ n ≤ 2 ^ 32) : Oracle Fr G1 n :=
  ⟨O.draw, fun tr => O.live tr n h.1 h.2⟩

/-- `prover_with_lagrange` as it is called for notes, e.g. abar_to_abar.rs:317-330.  Systems of other sizes do not occur; the panic
for them stands for the loop of transcript.rs:41-47 that need not end. -/
def provePlonk (E : Env Fr G1 G2) (O : Source G1) (coins : Coins Fr) (q : ProverParams Fr G1 G2) (tr : Tr Fr G1)
    (wit : List Fr) : Res (Snark.Proof G1 Fr) :=
  if h : 0 < q.cs.gates.length ∧ q.cs.gates.length ≤ 2 ^ 32 then
    prover (O.sized q.cs.gates.length h) E.msm q.pcs q.lagrange tr false q.cs q.pk wit coins
  else .panic

/-- `verifier` as it is called for notes, e.g. abar_to_abar.rs:347-358 -/
def verifyPlonk (P : Pairing Fr G1 G2 Gt) (O : Source G1) (w : VerifierParams Fr G1 G2) (tr : Tr Fr G1) (pi : List Fr)
    (pf : Snark.Proof G1 Fr) : Bool :=
  if h : 0 < w.cs.size ∧ w.cs.size ≤ 2 ^ 32 then
    match w.verify rfl (O.sized w.cs.size h) P tr pi pf with
    | .ok () => true
    | _ => false
  else false

/-- the challenges `beta` and `gamma` after the statement and the commitments to the wires -/
def drawn (O : Source G1) (q : ProverParams Fr G1 G2) (tr : Tr Fr G1) (online : List Fr) (cmW : List G1) : Fr × Fr :=
  if h : 0 < q.cs.gates.length ∧ q.cs.gates.length ≤ 2 ^ 32 then
    let b := challenge (O.sized q.cs.gates.length h) (initPlonk tr q.pk.vk online ++ cmW.map .commitment) "beta"
    (b.1, (challenge (O.sized q.cs.gates.length h) b.2 "gamma").1)
  else (0, 0)

/-- a proof for the witness of a satisfied system is accepted, unless the second challenge is one of few -/
theorem HonestEnv.plonk {P : Pairing Fr G1 G2 Gt} (hP : NonDegenerate P) {E : Env Fr G1 G2} {d : Nat} {s : Fr} (H : HonestEnv P E d s)
    (cs : CS Fr) (hwf : WF cs) (e : Nat) (he : e ≤ 29) (hsz : cs.gates.length = 2 ^ e) (hd : cs.gates.length + 2 ≤ d)
    (q : ProverParams Fr G1 G2) (hq : E.proverFirst (some cs) = .ok q ∨ E.proverLast (some cs) = .ok q)
    (w : VerifierParams Fr G1 G2) (hw : (VerifierParams.ofProver q).shrink = .ok w) (cs' : CS Fr) (hsh : cs'.shape = cs.shape)
    (hwf' : WF cs') (hsat : Sat cs' cs'.value cs'.online) (coins : Coins Fr) (hc : GoodCoins coins) :
    q.cs = cs ∧ ∃ (cmW : List G1) (bad : Fr → Finset Fr), (∀ beta, (bad beta).card ≤ 5 * (cs.gates.length - 1)) ∧
      ∀ (O : Source G1) (tr : Tr Fr G1),
        ((drawn O q tr cs'.online cmW).2 ∈ bad (drawn O q tr cs'.online cmW).1 → provePlonk E O coins q tr cs'.witness = .panic) ∧
        ((drawn O q tr cs'.online cmW).2 ∉ bad (drawn O q tr cs'.online cmW).1 →
          ∃ pf, provePlonk E O coins q tr cs'.witness = .ok pf ∧ verifyPlonk P O w tr cs'.online pf = true) := by
  classical
  obtain ⟨lag, hok, rootM, D, hr, h1, h2⟩ := H.params cs hwf e he hsz hd
  have hq' : q = ⟨setup P d s, lag, cs, pkOf s P.base1 rootM (blsRoot cs.gates.length) kappa cs⟩ := by
    rcases hq with h | h
    · exact (Res.ok.inj (h1.symm.trans h)).symm
    · exact (Res.ok.inj (h2.symm.trans h)).symm
  subst hq'
  refine ⟨rfl, ?_⟩
  have hpub : cs'.pubVars = cs.pubVars := by have := congrArg (fun c : CS Fr => c.pubVars) hsh; exact this
  have hnum : cs'.numVars = cs.numVars := by have := congrArg (fun c : CS Fr => c.numVars) hsh; exact this
  have hon : cs'.online = cs.pubVars.map fun v => cs'.witness[v]?.getD 0 := by rw [← hpub]; rfl
  have hsat' : Sat cs cs'.value cs'.online := Sat.shape hsh.symm hsat
  obtain ⟨pk, cmW, e1, -, e2⟩ := C71_complete P hP E.msm H.msm d s lag E.rootOf kappa rootM (blsRoot cs.gates.length) cs hwf D hd hr hok
    cs'.witness (by rw [hwf'.wit, hnum]) (by rw [← hon]; exact hsat') coins hc.w hc.pairs hc.z hc.t
  rw [C60_indexer P E.msm H.msm d s lag E.rootOf kappa rootM (blsRoot cs.gates.length) cs hwf D (by omega) hr hok] at e1
  obtain rfl := Res.ok.inj e1
  choose bad hb1 hb2 using fun beta => C71_unlucky_few (blsRoot cs.gates.length) kappa (wireVal cs cs'.witness) (sigma cs)
    cs.gates.length beta
  refine ⟨cmW, fun beta => (bad beta).filter fun gamma => ∃ i < cs.gates.length - 1,
    zDen (blsRoot cs.gates.length) kappa (wireVal cs cs'.witness) (sigma cs) cs.gates.length beta gamma i = 0,
    fun beta => le_trans (Finset.card_filter_le _ _) (hb1 beta), fun O tr => ?_⟩
  have hn : 0 < cs.gates.length ∧ cs.gates.length ≤ 2 ^ 32 := by
    rw [hsz]
    exact ⟨Nat.pos_of_ne_zero (by positivity), Nat.pow_le_pow_right (by norm_num) (by omega)⟩
  obtain ⟨f1, f2⟩ := e2 (O.sized cs.gates.length hn) tr
  rw [← hon] at f1 f2
  simp only [provePlonk, drawn]
  rw [dif_pos hn, dif_pos hn]
  refine ⟨fun h => f1 (Finset.mem_filter.mp h).2, fun h => ?_⟩
  obtain ⟨pf, g1, -, g2⟩ := f2 (by
    intro i hi hz
    exact hb2 _ _ (fun hm => h (Finset.mem_filter.mpr ⟨hm, i, hi, hz⟩)) i hi hz)
  refine ⟨pf, g1, ?_⟩
  have hsw := (C88_shrink_keeps _ _ hw).2.1
  have hv : ∀ h, w.verify rfl (O.sized w.cs.size h) P tr cs'.online pf = .ok () := by
    have key : ∀ n (hn : w.cs.size = n) (hn' : cs.gates.length = n) h, w.verify hn (O.sized n h) P tr cs'.online pf = .ok () := by
      intro n hn hn' h
      subst hn'
      exact (C88_shrink_verifies _ _ hw rfl hn (O.sized cs.gates.length h) P tr _ pf).trans g2
    exact key _ rfl hsw.symm
  rw [verifyPlonk, dif_pos (by rw [hsw]; exact hn), hv]

/-! ### The circuits of setup are well formed -/

theorem wf_arToAbar {t : Payee Fr} {vars : PayeeVars} {cs : CS Fr} (h : buildArToAbar Rescue.blsParams t CS.new = some (vars, cs)) :
    WF cs := by
  have hp := goodBls
  generalize Rescue.blsParams = p at hp h
  exact (soundP_buildArToAbar p hp t _ _ _ WF.new h).1

theorem wf_barToAbar {dbg : Bool} {t : Payee Fr} {wit : InspWitness SimFr.ristretto Fr} {vars : BarVars Fr} {cs : CS Fr}
    (h : buildBarToAbar Rescue.blsParams dbg SimFr.ristretto t wit CS.new = some (vars, cs)) : WF cs := by
  have hp := goodBls
  generalize Rescue.blsParams = p at hp h
  exact (soundP_buildBarToAbar p hp dbg SimFr.ristretto ristretto_insp t wit _ _ _ WF.new h).1

theorem wf_abarToAr {dbg : Bool} {wit : FoldWitness SimFr.secq256k1 Fr} {s : Payer Fr} {pk : Anon.PK Fr} {sk : Anon.SK Fr}
    {vars : AbarVars FoldVars} {cs : CS Fr}
    (h : buildAbarToAr Rescue.blsParams (foldingCircuit Rescue.blsParams dbg SimFr.secq256k1 secpOrderBytes wit) s pk sk CS.new =
      some (vars, cs)) : WF cs := by
  have hp := goodBls
  generalize Rescue.blsParams = p at hp h
  exact (soundP_buildAbarToAr p hp secq_fold.two _ _
    (fun pk sk => soundP_foldingCircuit p hp dbg _ secq_fold _ secpOrder_ok.1 secpOrder_ok.2.1 wit pk sk) s pk sk _ _ _ WF.new h).1

theorem wf_abarToBar {dbg : Bool} {fw : FoldWitness SimFr.secq256k1 Fr} {s : Payer Fr} {pk : Anon.PK Fr} {sk : Anon.SK Fr}
    {wit : InspWitness SimFr.ristretto Fr} {vars : AbarBarVars Fr FoldVars} {cs : CS Fr}
    (h : buildAbarToBar Rescue.blsParams (foldingCircuit Rescue.blsParams dbg SimFr.secq256k1 secpOrderBytes fw) dbg SimFr.ristretto s pk sk
      wit CS.new = some (vars, cs)) : WF cs := by
  have hp := goodBls
  generalize Rescue.blsParams = p at hp h
  exact (soundP_buildAbarToBar p hp _ _
    (fun pk sk => soundP_foldingCircuit p hp dbg _ secq_fold _ secpOrder_ok.1 secpOrder_ok.2.1 fw pk sk) dbg _ ristretto_insp s pk sk
    wit _ _ _ WF.new h).1

theorem wf_transfer {dbg : Bool} {wit : FoldWitness SimFr.secq256k1 Fr} {payers : List (Payer Fr)} {payees : List (Payee Fr)}
    {pk : Anon.PK Fr} {sk : Anon.SK Fr} {fee feeType : Fr} {vars : XfrVars FoldVars} {cs : CS Fr}
    (h1 : payers.length ≤ 6) (h2 : payees.length ≤ 6)
    (h : buildMultiXfr Rescue.blsParams (foldingCircuit Rescue.blsParams dbg SimFr.secq256k1 secpOrderBytes wit) payers payees pk sk fee
      feeType CS.new = some (vars, cs)) : WF cs := by
  have hp := goodBls
  generalize Rescue.blsParams = p at hp h
  have ho : 7 * 2 ^ 64 < ScalarRepr.order Fr := lt_trans (by norm_num) order_big
  exact (soundP_buildMultiXfr p hp secq_fold.two _ (fun w vars pk sk pub => True)
    (fun pk sk => (soundP_foldingCircuit p hp dbg _ secq_fold _ secpOrder_ok.1 secpOrder_ok.2.1 wit pk sk).cons
      (fun _ _ _ _ _ => trivial)) payers payees pk sk fee feeType
    (lt_of_le_of_lt (Nat.mul_le_mul_right _ (le_trans h1 (by norm_num))) ho)
    (lt_of_le_of_lt (Nat.mul_le_mul_right _ (Nat.succ_le_succ h2)) ho) _ _ _ WF.new h).1

/-! ### All files are made -/

omit [DecidableEq Gt] in
theorem shrink_setup (P : Pairing Fr G1 G2 Gt) (d : Nat) (s : Fr) :
    Poly.shrink (setup P d s) = .ok ⟨[P.base1], [P.base2, s • P.base2]⟩ := rfl

/-- the key of the verifier has sizes in the range of the machine -/
theorem pkOf_fits {G1 : Type} [AddCommGroup G1] [Module Fr G1] (s : Fr) (g : G1) (rootM root : Fr) (κ : Nat → Fr) (cs : CS Fr) (hwf : WF cs)
    (hsz : cs.gates.length < 2 ^ 32) : Specific.Fits ⟨ParCs.shrink (.full cs), (pkOf s g rootM root κ cs).vk⟩ := by
  have hlen : cs.pubCons.length ≤ cs.gates.length := by
    have := (hwf.nodup.subperm (l₂ := List.range cs.gates.length) fun c hc => List.mem_range.mpr (hwf.pubCons_lt c hc)).length_le
    rwa [List.length_range] at this
  have h64 : cs.gates.length < 2 ^ 64 := lt_trans hsz (by norm_num)
  refine ⟨⟨_, _, rfl, h64⟩, ?_, ?_, ?_, h64, ?_, ?_, ?_⟩
  · simp [pkOf, selectors]
  · simp [pkOf]
  · simp [pkOf]
  · exact lt_of_le_of_lt hlen hsz
  · exact fun i hi => lt_trans (hwf.pubCons_lt i hi) h64
  · have : (pkOf s g rootM root κ cs).vk.lagrange.length = cs.pubCons.length := by simp [pkOf]
    show (pkOf s g rootM root κ cs).vk.lagrange.length < 2 ^ 32
    rw [this]
    exact lt_of_le_of_lt hlen hsz

theorem HonestEnv.ready {P : Pairing Fr G1 G2 Gt} {E : Env Fr G1 G2} {d : Nat} {s : Fr} (H : HonestEnv P E d s) (cs : CS Fr)
    (hwf : WF cs) (e : Nat) (he : e ≤ 29) (hsz : cs.gates.length = 2 ^ e) (hd : cs.gates.length + 2 ≤ d) :
    ∃ q w, E.proverFirst (some cs) = .ok q ∧ E.proverLast (some cs) = .ok q ∧ q.cs = cs ∧ (VerifierParams.ofProver q).shrink = .ok w ∧
      Poly.shrink q.pcs = .ok ⟨[P.base1], [P.base2, s • P.base2]⟩ ∧ keyFits w.pcs ∧ Specific.Fits ⟨w.cs, w.vk⟩ ∧
      w.cs = ParCs.shrink (.full q.cs) ∧ w.vk = q.pk.vk := by
  obtain ⟨lag, -, rootM, -, -, h1, h2⟩ := H.params cs hwf e he hsz hd
  have hlt : cs.gates.length < 2 ^ 32 := by
    rw [hsz]
    exact Nat.pow_lt_pow_right (by norm_num) (by omega)
  refine ⟨_, ⟨⟨[P.base1], [P.base2, s • P.base2]⟩, ParCs.shrink (.full cs), (pkOf s P.base1 rootM (blsRoot cs.gates.length) kappa cs).vk⟩, h1, h2,
    rfl, ?_, shrink_setup P d s, ?_, pkOf_fits s P.base1 rootM _ kappa cs hwf hlt, rfl, rfl⟩
  · rw [VerifierParams.shrink, show (VerifierParams.ofProver (⟨setup P d s, lag, cs, _⟩ : ProverParams Fr G1 G2)).pcs = setup P d s
      from rfl, shrink_setup]
    rfl
  · simp [keyFits]

/-- the circuit of setup for one to six inputs and outputs -/
theorem transfer_circuit (dbg : Bool) (feeType : Fr) (n m : Nat) (h1 : 1 ≤ n) (h2 : n ≤ 6) (h3 : 1 ≤ m) (h4 : m ≤ 6) :
    ∃ cs vars, transferCs Rescue.blsParams dbg SimFr.secq256k1 secpOrderBytes feeType n m 20 = some cs ∧
      buildMultiXfr Rescue.blsParams (foldingCircuit Rescue.blsParams dbg SimFr.secq256k1 secpOrderBytes (defaultFold SimFr.secq256k1 Fr))
        (List.replicate n (fakePayer 20)) (List.replicate m (fakePayee (defaultPk Fr))) (defaultPk Fr) (Anon.Spec.skWords 0) 0 feeType
        CS.new = some (vars, cs) ∧
      WF cs ∧ ∃ e ≤ 15, cs.gates.length = 2 ^ e := by
  obtain ⟨cs, hcs, ⟨⟨e, he⟩, -, hle⟩, -, -⟩ := C93_setup_transfer dbg feeType n m 20 h1 h3
  have hcs' := hcs
  rw [transferCs, Option.map_eq_some_iff] at hcs
  obtain ⟨⟨vars, cs1⟩, hb, rfl⟩ := hcs
  refine ⟨cs1, vars, hcs', hb, wf_transfer (by simpa using h2) (by simpa using h4) hb, e, ?_, he⟩
  have : cs1.gates.length ≤ 2 ^ 15 := hle 15 (by
    unfold Spec.transferGates
    have : n * n ≤ 6 * 6 := Nat.mul_le_mul h2 h2
    have : m * m ≤ 6 * 6 := Nat.mul_le_mul h4 h4
    have : n * m ≤ 6 * 6 := Nat.mul_le_mul h2 h4
    nlinarith)
  rw [he] at this
  exact (Nat.pow_le_pow_iff_right (by norm_num)).mp this

/-- C94: with an honest reference string of the shipped degree, 32770, the files with the parameters of the verifier are made, for
all transfers with one to six inputs and outputs and for the four conversions. -/
theorem C94_files {P : Pairing Fr G1 G2 Gt} {E : Env Fr G1 G2} {d : Nat} {s : Fr} (H : HonestEnv P E d s) (hd : 32770 ≤ d)
    (B : FileBins Fr G1 G2) (hB : B.Writes) (C : Bin (VerifierParams Fr G1 G2)) (hC : C.Writes) (dbg : Bool) (feeType : Fr)
    (pk : Anon.PK Fr) :
    (∃ files, E.genTransfer B (transferCs Rescue.blsParams dbg SimFr.secq256k1 secpOrderBytes feeType) = .ok files) ∧
    (∃ file, genConversion C (E.proverLast (arToAbarCs Rescue.blsParams pk)) = .ok file) ∧
    (∃ file, genConversion C (E.proverFirst (barToAbarCs Rescue.blsParams dbg SimFr.ristretto pk)) = .ok file) ∧
    (∃ file, genConversion C (E.proverLast (abarToArCs Rescue.blsParams dbg SimFr.secq256k1 secpOrderBytes 20)) = .ok file) ∧
    (∃ file, genConversion C (E.proverLast (abarToBarCs Rescue.blsParams dbg SimFr.secq256k1 SimFr.ristretto secpOrderBytes 20)) =
      .ok file) := by
  have conv : ∀ q w, (VerifierParams.ofProver q : VerifierParams Fr G1 G2).shrink = .ok w → keyFits w.pcs →
      Specific.Fits ⟨w.cs, w.vk⟩ → ∃ file, genConversion C (.ok q) = .ok file := by
    intro q w hw f1 f2
    obtain ⟨file, hfile⟩ := hC w f1 f2
    refine ⟨file, ?_⟩
    rw [genConversion]
    show (unwrapRes ((VerifierParams.ofProver q).shrink)).bind _ = _
    rw [hw]
    show Res.unwrap (C.ser w) = _
    rw [hfile]
    rfl
  obtain ⟨⟨c1, e1, z1⟩, ⟨c2, e2, z2⟩, ⟨c3, e3, z3⟩, ⟨c4, e4, z4⟩⟩ := C93_setup_conversions dbg pk
  refine ⟨?_, ?_, ?_, ?_, ?_⟩
  · have key : ∀ n m, (1 ≤ n ∧ n ≤ 6) ∧ (1 ≤ m ∧ m ≤ 6) → ∃ q : ProverParams Fr G1 G2,
        E.create (transferCs Rescue.blsParams dbg SimFr.secq256k1 secpOrderBytes feeType) n m (some 20) = .ok (.ofProver q) ∧
        Poly.shrink q.pcs = .ok ⟨[P.base1], [P.base2, s • P.base2]⟩ ∧ Specific.Fits ⟨ParCs.shrink (.full q.cs), q.pk.vk⟩ := by
      intro n m h
      obtain ⟨cs, vars, hcs, hb, hwf, e, he, hsz⟩ := transfer_circuit dbg feeType n m h.1.1 h.1.2 h.2.1 h.2.2
      have h15 : 2 ^ e ≤ 2 ^ 15 := Nat.pow_le_pow_right (by norm_num) he
      obtain ⟨q, w, h1, -, -, -, h2, -, h3, h4, h5⟩ := H.ready cs hwf e (le_trans he (by norm_num)) hsz (by rw [hsz]; omega)
      refine ⟨q, ?_, h2, by rw [← h4, ← h5]; exact h3⟩
      rw [Env.create, Option.getD_some, hcs, h1]
      rfl
    obtain ⟨q0, -, -, -⟩ := key 1 1 (by omega)
    have : Nonempty (ProverParams Fr G1 G2) := ⟨q0⟩
    choose! q hq1 hq2 hq3 using key
    exact genTransfer_ok E B hB _ (fun n m => .ofProver (q n m)) (fun i j a b c d => hq1 i j ⟨⟨a, b⟩, c, d⟩) _ (hq2 1 1 (by omega))
      (by simp [keyFits]) (fun i j a b c d => hq3 i j ⟨⟨a, b⟩, c, d⟩)
  · rw [e1]
    rw [arToAbarCs, Option.map_eq_some_iff] at e1
    obtain ⟨⟨vars, cs⟩, hb, rfl⟩ := e1
    obtain ⟨q, w, h1, h2, -, h3, -, f1, f2, -, -⟩ := H.ready cs (wf_arToAbar hb) 9 (by norm_num) z1 (by rw [show cs.gates.length = _ from z1]; omega)
    rw [h2]
    exact conv q w h3 f1 f2
  · rw [e2]
    rw [barToAbarCs, Option.map_eq_some_iff] at e2
    obtain ⟨⟨vars, cs⟩, hb, rfl⟩ := e2
    obtain ⟨q, w, h1, h2, -, h3, -, f1, f2, -, -⟩ := H.ready cs (wf_barToAbar hb) 11 (by norm_num) z2 (by rw [show cs.gates.length = _ from z2]; omega)
    rw [h1]
    exact conv q w h3 f1 f2
  · rw [e3]
    rw [abarToArCs, Option.map_eq_some_iff] at e3
    obtain ⟨⟨vars, cs⟩, hb, rfl⟩ := e3
    obtain ⟨q, w, h1, h2, -, h3, -, f1, f2, -, -⟩ := H.ready cs (wf_abarToAr hb) 13 (by norm_num) z3 (by rw [show cs.gates.length = _ from z3]; omega)
    rw [h2]
    exact conv q w h3 f1 f2
  · rw [e4]
    rw [abarToBarCs, Option.map_eq_some_iff] at e4
    obtain ⟨⟨vars, cs⟩, hb, rfl⟩ := e4
    obtain ⟨q, w, h1, h2, -, h3, -, f1, f2, -, -⟩ := H.ready cs (wf_abarToBar hb) 13 (by norm_num) z4 (by rw [show cs.gates.length = _ from z4]; omega)
    rw [h2]
    exact conv q w h3 f1 f2

/-! ### Notes -/

omit [AddCommGroup G1] [Module Fr G1] in
/-- `Transcript::new` of merlin -/
def start (label : String) : Tr Fr G1 := [.message "dom-sep" label]

/-- `Transcript::new` and `append_u64` of merlin, abar_to_abar.rs:307-315 -/
def startXfr (l : List (String × Option UInt64)) : Tr Fr G1 :=
  l.map fun
    | (label, none) => .message "dom-sep" label
    | (label, some n) => .u64 label n.toNat

/-- the parameters of the prover and those that the verifier has loaded -/
abbrev Pars (G1 G2 : Type) := ProverParams Fr G1 G2 × VerifierParams Fr G1 G2

/-- the generators of conversions with the PLONK prover -/
def liveProver {S : Xfr.Types} {SigKey : Type} (E : Env Fr G1 G2) (O : Source G1) (coins : Coins Fr)
    (sign : SigKey → Bytes → Res S.Sg) : ConvProver S Fr (Pars G1 G2) (Snark.Proof G1 Fr) SigKey :=
  ⟨fun par label wit => provePlonk E O coins par.1 (start label) wit, sign⟩

/-- the verifiers of conversions with the PLONK verifier -/
def liveExt {S : Xfr.Types} {Q : SimFr.Params} (P : Pairing Fr G1 G2 Gt) (O : Source G1)
    (X : ConvExt S Q Fr (Pars G1 G2) (Snark.Proof G1 Fr)) : ConvExt S Q Fr (Pars G1 G2) (Snark.Proof G1 Fr) :=
  { X with plonk := fun par label pi pf => verifyPlonk P O par.2 (start label) pi pf }

section
variable {S : Xfr.Types} {Q : SimFr.Params} {SigKey G Hs Mp : Type}

/-- C94, transparent to anonymous: `q` is the prover's key made by setup, `w` what the verifier loads from the file of
`gen-params`.  The note is made and accepted, unless the challenge `gamma` falls into a set of at most `5 * 511` elements
that is fixed before; then the prover panics. -/
theorem C94_ar_to_abar {P : Pairing Fr G1 G2 Gt} (hP : NonDegenerate P) {E : Env Fr G1 G2} {d : Nat} {s : Fr} (H : HonestEnv P E d s)
    (hd : 32770 ≤ d) (B : Bin (VerifierParams Fr G1 G2)) (hB : B.Lawful) (pk0 : Anon.PK Fr) (file : Bytes)
    (hfile : genConversion B (E.proverLast (arToAbarCs Rescue.blsParams pk0)) = .ok file) (q' : Res (ProverParams Fr G1 G2))
    (sign : SigKey → Bytes → Res S.Sg) (X : ConvExt S Q Fr (Pars G1 G2) (Snark.Proof G1 Fr))
    (ser : ArToAbarBody S Fr (Snark.Proof G1 Fr) → Option Bytes) (hser : ∀ b, ∃ m, ser b = some m) (o : OpenRec S Q)
    (ho : o.bar.amount = .plain o.amount ∧ o.bar.assetType = .plain o.ty) (sk : SigKey)
    (hsig : ∀ m, ∃ sig, sign sk m = .ok sig ∧ X.sigVerify o.bar.publicKey m sig = true) (pk : Anon.PK Fr) (blind : Fr) (memo : Bytes × Bytes)
    (coins : Coins Fr) (hc : GoodCoins coins) :
    ∃ q w, E.proverLast (arToAbarCs Rescue.blsParams pk0) = .ok q ∧ loadConversion B (some file) q' = .ok w ∧
    ∃ (online : List Fr) (cmW : List G1) (bad : Fr → Finset Fr), (∀ beta, (bad beta).card ≤ 5 * 511) ∧
    ∀ O : Source G1,
      ((drawn O q (start arToAbarLabel) online cmW).2 ∈ bad (drawn O q (start arToAbarLabel) online cmW).1 →
        (liveProver E O coins sign).genArToAbar Rescue.blsParams (liveExt P O X) ser (q, w) o sk pk blind memo = .panic) ∧
      ((drawn O q (start arToAbarLabel) online cmW).2 ∉ bad (drawn O q (start arToAbarLabel) online cmW).1 →
        ∃ note, (liveProver E O coins sign).genArToAbar Rescue.blsParams (liveExt P O X) ser (q, w) o sk pk blind memo = .ok note ∧
          (liveExt P O X).verifyArToAbar ser (q, w) note = .ok () ∧ note.body.input = o.bar ∧
          note.body.output = commit Rescue.blsParams pk blind (o.amount.toNat : Fr) (X.asNat o.ty : Fr) ∧ note.body.memo = memo) := by
  obtain ⟨q, w, hq, hw, hl⟩ := C88_conversion_file B hB _ q' file hfile
  refine ⟨q, w, hq, hl, ?_⟩
  obtain ⟨⟨c1, e1, z1⟩, -⟩ := C93_setup_conversions true pk0
  rw [e1] at hq
  rw [arToAbarCs, Option.map_eq_some_iff] at e1
  obtain ⟨⟨vars, cs⟩, hb, rfl⟩ := e1
  have hp := goodBls
  have z1 : cs.gates.length = 512 := z1
  have hwf := wf_arToAbar hb
  have wf' : ∀ cs' : CS Fr, (∃ t vars, buildArToAbar Rescue.blsParams t CS.new = some (vars, cs')) → WF cs' :=
    fun _ ⟨_, _, h⟩ => wf_arToAbar h
  generalize Rescue.blsParams = p at hp hb wf' ⊢
  let V0 : ConvProver S Fr (Pars G1 G2) (Snark.Proof G1 Fr) SigKey := ⟨fun _ _ _ => .panic, sign⟩
  obtain ⟨cs', hsh, hbu, hsat, h3⟩ := arToAbar_reduces p hp V0 X ser hser (q, w) _ vars cs hb o ho sk hsig pk blind memo
  obtain ⟨hqcs, cmW, bad, hcard, hpl⟩ := H.plonk hP cs hwf 9 (by norm_num) z1 (by omega) q (.inr hq) w hw cs' hsh
    (wf' _ hbu) hsat coins hc
  refine ⟨cs'.online, cmW, bad, fun b => le_trans (hcard b) (by rw [z1]), fun O => ?_⟩
  obtain ⟨p1, p2⟩ := hpl O (start arToAbarLabel)
  obtain ⟨r1, r2⟩ := h3 (liveProver (S := S) E O coins sign).prove (liveExt P O X).plonk
  refine ⟨fun h => r1 (p1 h), fun h => ?_⟩
  obtain ⟨pf, g1, g2⟩ := p2 h
  exact r2 pf g1 g2

section
variable [AddCommGroup S.G] [DecidableEq S.G] [Module (ZMod SimFr.ristretto.r) S.G]

/-- C94, confidential to anonymous. -/
theorem C94_bar_to_abar {P : Pairing Fr G1 G2 Gt} (hP : NonDegenerate P) {E : Env Fr G1 G2} {d : Nat} {s : Fr} (H : HonestEnv P E d s)
    (hd : 32770 ≤ d) (B : Bin (VerifierParams Fr G1 G2)) (hB : B.Lawful) (dbg : Bool) (pk0 : Anon.PK Fr) (file : Bytes)
    (hfile : genConversion B (E.proverFirst (barToAbarCs Rescue.blsParams dbg SimFr.ristretto pk0)) = .ok file)
    (q' : Res (ProverParams Fr G1 G2)) (sign : SigKey → Bytes → Res S.Sg)
    (X : ConvExt S SimFr.ristretto Fr (Pars G1 G2) (Snark.Proof G1 Fr))
    (ser : BarToAbarBody S SimFr.ristretto Fr (Snark.Proof G1 Fr) → Option Bytes) (hser : ∀ b, ∃ m, ser b = some m)
    (o : OpenRec S SimFr.ristretto) (hkind : bothPlain o.bar = false) (ho : (Anon.Spec.RecOpening.ofRec X o).Opens X o.bar) (sk : SigKey)
    (key : S.PK) (hsig : ∀ m, ∃ sig, sign sk m = .ok sig ∧ X.sigVerify key m sig = true) (pk : Anon.PK Fr) (blind : Fr) (memo : Bytes × Bytes)
    (rand : List (ZMod SimFr.ristretto.r × ZMod SimFr.ristretto.r)) (hr : rand.length = 2) (r : Fr)
    (coins : Coins Fr) (hc : GoodCoins coins) :
    ∃ q w, E.proverFirst (barToAbarCs Rescue.blsParams dbg SimFr.ristretto pk0) = .ok q ∧ loadConversion B (some file) q' = .ok w ∧
    ∃ (online : List Fr) (cmW : List G1) (bad : Fr → Finset Fr), (∀ beta, (bad beta).card ≤ 5 * 2047) ∧
    ∀ O : Source G1,
      ((drawn O q (start barToAbarLabel) online cmW).2 ∈ bad (drawn O q (start barToAbarLabel) online cmW).1 →
        (liveProver E O coins sign).genBarToAbar Rescue.blsParams (liveExt P O X) dbg ser (q, w) o sk pk blind memo rand r = .panic) ∧
      ((drawn O q (start barToAbarLabel) online cmW).2 ∉ bad (drawn O q (start barToAbarLabel) online cmW).1 →
        ∃ note, (liveProver E O coins sign).genBarToAbar Rescue.blsParams (liveExt P O X) dbg ser (q, w) o sk pk blind memo rand r = .ok note ∧
          (liveExt P O X).verifyBarToAbar ser (q, w) note key = .ok () ∧ note.body.input = o.bar ∧
          note.body.output = commit Rescue.blsParams pk blind (o.amount.toNat : Fr) (X.asNat o.ty : Fr) ∧ note.body.memo = memo) := by
  obtain ⟨q, w, hq, hw, hl⟩ := C88_conversion_file B hB _ q' file hfile
  refine ⟨q, w, hq, hl, ?_⟩
  obtain ⟨-, ⟨c1, e1, z1⟩, -⟩ := C93_setup_conversions dbg pk0
  rw [e1] at hq
  rw [barToAbarCs, Option.map_eq_some_iff] at e1
  obtain ⟨⟨vars, cs⟩, hb, rfl⟩ := e1
  have hp := goodBls
  have z1 : cs.gates.length = 2048 := z1
  have hwf := wf_barToAbar hb
  have wf' : ∀ cs' : CS Fr, (∃ t wit vars, buildBarToAbar Rescue.blsParams dbg SimFr.ristretto t wit CS.new = some (vars, cs')) → WF cs' :=
    fun _ ⟨_, _, _, h⟩ => wf_barToAbar h
  generalize Rescue.blsParams = p at hp hb wf' ⊢
  let V0 : ConvProver S Fr (Pars G1 G2) (Snark.Proof G1 Fr) SigKey := ⟨fun _ _ _ => .panic, sign⟩
  obtain ⟨cs', hsh, hbu, hsat, h3⟩ := barToAbar_reduces p hp dbg ristretto_insp ristretto_ge V0 X ser hser (q, w) _ _
    (InspWitness.default_consistent _) vars cs hb o hkind ho sk key hsig pk blind memo rand hr r
  obtain ⟨hqcs, cmW, bad, hcard, hpl⟩ := H.plonk hP cs hwf 11 (by norm_num) z1 (by omega) q (.inl hq) w hw cs' hsh
    (wf' _ hbu) hsat coins hc
  refine ⟨cs'.online, cmW, bad, fun b => le_trans (hcard b) (by rw [z1]), fun O => ?_⟩
  obtain ⟨p1, p2⟩ := hpl O (start barToAbarLabel)
  obtain ⟨r1, r2⟩ := h3 (liveProver (S := S) E O coins sign).prove (liveExt P O X).plonk
  refine ⟨fun h => r1 (p1 h), fun h => ?_⟩
  obtain ⟨pf, g1, g2⟩ := p2 h
  exact r2 pf g1 g2

end

section
variable [AddCommGroup G] [DecidableEq G] [Module (ZMod SimFr.secq256k1.r) G]

/-- C94, anonymous to transparent: for every key pair and every record of this key with a path of twenty nodes to the root. -/
theorem C94_abar_to_ar {P : Pairing Fr G1 G2 Gt} (hP : NonDegenerate P) {E : Env Fr G1 G2} {d : Nat} {s : Fr} (H : HonestEnv P E d s)
    (hd : 32770 ≤ d) (B : Bin (VerifierParams Fr G1 G2)) (hB : B.Lawful) (dbg : Bool) (file : Bytes)
    (hfile : genConversion B (E.proverLast (abarToArCs Rescue.blsParams dbg SimFr.secq256k1 secpOrderBytes 20)) = .ok file)
    (q' : Res (ProverParams Fr G1 G2)) (sign : SigKey → Bytes → Res S.Sg) (X : ConvExt S Q Fr (Pars G1 G2) (Snark.Proof G1 Fr))
    (Y : FoldExt SimFr.secq256k1 Fr G Hs Mp) (M : FoldProver SimFr.secq256k1 Fr G Hs Mp)
    (uid blind : Fr) (path : List (MTNode Fr)) (hlen : path.length = 20) (hg : ∀ n ∈ path, GoodNode n) (root : Fr) (amount : UInt64)
    (ty : S.AT) (key : S.PK) (kp : FoldKey)
    (hk : kp.x < SimFr.secq256k1.r ∧ kp.y < SimFr.secq256k1.r ∧ kp.s < SimFr.secq256k1.r ∧ kp.s < ofLE secpOrderBytes)
    (hroot : payerRoot Rescue.blsParams (Anon.Spec.pkWords kp.x kp.y) ⟨uid, (amount.toNat : Fr), (X.asNat ty : Fr), blind, path⟩ = root)
    (h : Hs) (hM : M.Complete Y abarToArFoldLabel h kp) (rand : List (ZMod SimFr.secq256k1.r × ZMod SimFr.secq256k1.r))
    (hr : rand.length = 3) (r : Fr) (coins : Coins Fr) (hc : GoodCoins coins) :
    ∃ q w, E.proverLast (abarToArCs Rescue.blsParams dbg SimFr.secq256k1 secpOrderBytes 20) = .ok q ∧
    loadConversion B (some file) q' = .ok w ∧
    ∃ (online : List Fr) (cmW : List G1) (bad : Fr → Finset Fr), (∀ beta, (bad beta).card ≤ 5 * 8191) ∧
    ∀ O : Source G1,
      ((drawn O q (start abarToArLabel) online cmW).2 ∈ bad (drawn O q (start abarToArLabel) online cmW).1 →
        (liveProver E O coins sign).genAbarToAr Rescue.blsParams (liveExt P O X) Y M dbg secpOrderBytes (q, w) uid blind path root amount ty
          key kp h rand r = .panic) ∧
      ((drawn O q (start abarToArLabel) online cmW).2 ∉ bad (drawn O q (start abarToArLabel) online cmW).1 →
        ∃ note, (liveProver E O coins sign).genAbarToAr Rescue.blsParams (liveExt P O X) Y M dbg secpOrderBytes (q, w) uid blind path root
            amount ty key kp h rand r = .ok note ∧
          (liveExt P O X).verifyAbarToAr Y (q, w) note root h = .ok () ∧
          note.input = nullify Rescue.blsParams (Anon.Spec.pkWords kp.x kp.y) (Anon.Spec.skWords kp.s) uid (amount.toNat : Fr) (X.asNat ty : Fr) ∧
          note.output = ⟨.plain amount, .plain ty, key⟩) := by
  obtain ⟨q, w, hq, hw, hl⟩ := C88_conversion_file B hB _ q' file hfile
  refine ⟨q, w, hq, hl, ?_⟩
  obtain ⟨-, -, ⟨c1, e1, z1⟩, -⟩ := C93_setup_conversions dbg (defaultPk Fr)
  rw [e1] at hq
  rw [abarToArCs, Option.map_eq_some_iff] at e1
  obtain ⟨⟨vars, cs⟩, hb, rfl⟩ := e1
  have hp := goodBls
  have z1 : cs.gates.length = 8192 := z1
  have hwf := wf_abarToAr hb
  have wf' : ∀ cs' : CS Fr, (∃ wit s pk sk vars, buildAbarToAr Rescue.blsParams
      (foldingCircuit Rescue.blsParams dbg SimFr.secq256k1 secpOrderBytes wit) s pk sk CS.new = some (vars, cs')) → WF cs' :=
    fun _ ⟨_, _, _, _, _, h⟩ => wf_abarToAr h
  generalize Rescue.blsParams = p at hp hb wf' hroot ⊢
  let V0 : ConvProver S Fr (Pars G1 G2) (Snark.Proof G1 Fr) SigKey := ⟨fun _ _ _ => .panic, sign⟩
  obtain ⟨cs', hsh, hbu, hsat, h3⟩ := abarToAr_reduces p hp dbg secq_fold (by decide) secpOrderBytes secpOrder_ok.1 V0 X Y M (q, w) _
    (defaultFold_consistent _ (by decide)) _ _ _ vars cs hb uid blind path (by simpa [fakePayer] using hlen) hg root amount ty key kp hk
    hroot h hM rand hr r
  obtain ⟨hqcs, cmW, bad, hcard, hpl⟩ := H.plonk hP cs hwf 13 (by norm_num) z1 (by omega) q (.inr hq) w hw cs' hsh
    (wf' _ hbu) hsat coins hc
  refine ⟨cs'.online, cmW, bad, fun b => le_trans (hcard b) (by rw [z1]), fun O => ?_⟩
  obtain ⟨p1, p2⟩ := hpl O (start abarToArLabel)
  obtain ⟨r1, r2⟩ := h3 (liveProver (S := S) E O coins sign).prove (liveExt P O X).plonk
  refine ⟨fun h => r1 (p1 h), fun h => ?_⟩
  obtain ⟨pf, g1, g2⟩ := p2 h
  exact r2 pf g1 g2

variable [AddCommGroup S.G] [DecidableEq S.G] [Module (ZMod SimFr.ristretto.r) S.G]

/-- C94, anonymous to confidential. -/
theorem C94_abar_to_bar {P : Pairing Fr G1 G2 Gt} (hP : NonDegenerate P) {E : Env Fr G1 G2} {d : Nat} {s : Fr} (H : HonestEnv P E d s)
    (hd : 32770 ≤ d) (B : Bin (VerifierParams Fr G1 G2)) (hB : B.Lawful) (dbg : Bool) (file : Bytes)
    (hfile : genConversion B (E.proverLast (abarToBarCs Rescue.blsParams dbg SimFr.secq256k1 SimFr.ristretto secpOrderBytes 20)) = .ok file)
    (q' : Res (ProverParams Fr G1 G2)) (sign : SigKey → Bytes → Res S.Sg)
    (X : ConvExt S SimFr.ristretto Fr (Pars G1 G2) (Snark.Proof G1 Fr))
    (Y : FoldExt SimFr.secq256k1 Fr G Hs Mp) (M : FoldProver SimFr.secq256k1 Fr G Hs Mp)
    (uid blind : Fr) (path : List (MTNode Fr)) (hlen : path.length = 20) (hg : ∀ n ∈ path, GoodNode n) (root : Fr)
    (o : OpenRec S SimFr.ristretto) (hkind : bothPlain o.bar = false) (ho : (Anon.Spec.RecOpening.ofRec X o).Opens X o.bar) (kp : FoldKey)
    (hk : kp.x < SimFr.secq256k1.r ∧ kp.y < SimFr.secq256k1.r ∧ kp.s < SimFr.secq256k1.r ∧ kp.s < ofLE secpOrderBytes)
    (hroot : payerRoot Rescue.blsParams (Anon.Spec.pkWords kp.x kp.y) ⟨uid, (o.amount.toNat : Fr), (X.asNat o.ty : Fr), blind, path⟩ = root)
    (h : Hs) (hM : M.Complete Y abarToBarFoldLabel h kp) (rand : List (ZMod SimFr.secq256k1.r × ZMod SimFr.secq256k1.r))
    (hr : rand.length = 3) (r : Fr) (irand : List (ZMod SimFr.ristretto.r × ZMod SimFr.ristretto.r)) (hir : irand.length = 2) (ir : Fr)
    (coins : Coins Fr) (hc : GoodCoins coins) :
    ∃ q w, E.proverLast (abarToBarCs Rescue.blsParams dbg SimFr.secq256k1 SimFr.ristretto secpOrderBytes 20) = .ok q ∧
    loadConversion B (some file) q' = .ok w ∧
    ∃ (online : List Fr) (cmW : List G1) (bad : Fr → Finset Fr), (∀ beta, (bad beta).card ≤ 5 * 8191) ∧
    ∀ O : Source G1,
      ((drawn O q (start abarToBarLabel) online cmW).2 ∈ bad (drawn O q (start abarToBarLabel) online cmW).1 →
        (liveProver E O coins sign).genAbarToBar Rescue.blsParams (liveExt P O X) Y M dbg secpOrderBytes (q, w) uid blind path root o kp h
          rand r irand ir = .panic) ∧
      ((drawn O q (start abarToBarLabel) online cmW).2 ∉ bad (drawn O q (start abarToBarLabel) online cmW).1 →
        ∃ note, (liveProver E O coins sign).genAbarToBar Rescue.blsParams (liveExt P O X) Y M dbg secpOrderBytes (q, w) uid blind path root o
            kp h rand r irand ir = .ok note ∧
          (liveExt P O X).verifyAbarToBar Y (q, w) note root h = .ok () ∧
          note.input = nullify Rescue.blsParams (Anon.Spec.pkWords kp.x kp.y) (Anon.Spec.skWords kp.s) uid (o.amount.toNat : Fr)
            (X.asNat o.ty : Fr) ∧ note.output = o.bar) := by
  obtain ⟨q, w, hq, hw, hl⟩ := C88_conversion_file B hB _ q' file hfile
  refine ⟨q, w, hq, hl, ?_⟩
  obtain ⟨-, -, -, ⟨c1, e1, z1⟩⟩ := C93_setup_conversions dbg (defaultPk Fr)
  rw [e1] at hq
  rw [abarToBarCs, Option.map_eq_some_iff] at e1
  obtain ⟨⟨vars, cs⟩, hb, rfl⟩ := e1
  have hp := goodBls
  have z1 : cs.gates.length = 8192 := z1
  have hwf := wf_abarToBar hb
  have wf' : ∀ cs' : CS Fr, (∃ fw s pk sk wit vars, buildAbarToBar Rescue.blsParams
      (foldingCircuit Rescue.blsParams dbg SimFr.secq256k1 secpOrderBytes fw) dbg SimFr.ristretto s pk sk wit CS.new = some (vars, cs')) →
      WF cs' := fun _ ⟨_, _, _, _, _, _, h⟩ => wf_abarToBar h
  generalize Rescue.blsParams = p at hp hb wf' hroot ⊢
  let V0 : ConvProver S Fr (Pars G1 G2) (Snark.Proof G1 Fr) SigKey := ⟨fun _ _ _ => .panic, sign⟩
  obtain ⟨cs', hsh, hbu, hsat, h3⟩ := abarToBar_reduces p hp dbg secq_fold (by decide) ristretto_insp ristretto_ge secpOrderBytes
    secpOrder_ok.1 V0 X Y M (q, w) _ (defaultFold_consistent _ (by decide)) _ (InspWitness.default_consistent _) _ _ _ vars cs hb uid blind
    path (by simpa [fakePayer] using hlen) hg root o hkind ho kp hk hroot h hM rand hr r irand hir ir
  obtain ⟨hqcs, cmW, bad, hcard, hpl⟩ := H.plonk hP cs hwf 13 (by norm_num) z1 (by omega) q (.inr hq) w hw cs' hsh
    (wf' _ hbu) hsat coins hc
  refine ⟨cs'.online, cmW, bad, fun b => le_trans (hcard b) (by rw [z1]), fun O => ?_⟩
  obtain ⟨p1, p2⟩ := hpl O (start abarToBarLabel)
  obtain ⟨r1, r2⟩ := h3 (liveProver (S := S) E O coins sign).prove (liveExt P O X).plonk
  refine ⟨fun h => r1 (p1 h), fun h => ?_⟩
  obtain ⟨pf, g1, g2⟩ := p2 h
  exact r2 pf g1 g2

/-- the generator of transfers with the PLONK prover -/
def liveXfrProver (E : Env Fr G1 G2) (O : Source G1) (coins : Coins Fr) : XfrProver Fr (Pars G1 G2) (Snark.Proof G1 Fr) :=
  ⟨fun par tr wit => provePlonk E O coins par.1 (startXfr tr) wit⟩

/-- the verifier of transfers with the PLONK verifier -/
def liveXfrExt (P : Pairing Fr G1 G2 Gt) (O : Source G1) : XfrExt Fr (Pars G1 G2) (Snark.Proof G1 Fr) :=
  ⟨fun par tr pi pf => verifyPlonk P O par.2 (startXfr tr) pi pf⟩

variable {AT Ep K : Type} [DecidableEq AT] [DecidableEq K] [AddCommGroup Ep] [AddCommGroup K]

/-- C94, transfers: for one to six inputs and outputs the verifier loads its parameters from the two files of `gen-params`. -/
theorem C94_transfer {P : Pairing Fr G1 G2 Gt} (hP : NonDegenerate P) {E E' : Env Fr G1 G2} {d : Nat} {s : Fr} (H : HonestEnv P E d s)
    (hd : 32770 ≤ d) (B : FileBins Fr G1 G2) (hB : B.common.Lawful) (hB' : B.specific.Lawful) (hB'' : B.table.Lawful) (dbg : Bool)
    (X : AnonExt Fr AT Ep K) (feeType : AT) (circuit' : Nat → Nat → Nat → Option (CS Fr)) (common specific : Bytes)
    (hfiles : E.genTransfer B (transferCs Rescue.blsParams dbg SimFr.secq256k1 secpOrderBytes (X.asScalar feeType)) = .ok (common, specific))
    (Y : FoldExt SimFr.secq256k1 Fr G Hs Mp) (M : FoldProver SimFr.secq256k1 Fr G Hs Mp)
    (ins outs : List (OpenAbarAt Fr AT K)) (fee : UInt32) (kp : AKeyPair K) (h6 : ins.length ≤ 6) (h6' : outs.length ≤ 6)
    (hco : ∀ k, (X.coord k).1 < 2 ^ 256 ∧ (X.coord k).2 < 2 ^ 256) (hs : kp.sec < 2 ^ 256)
    (hk : (X.coord kp.pub).1 < SimFr.secq256k1.r ∧ (X.coord kp.pub).2 < SimFr.secq256k1.r ∧ kp.sec < SimFr.secq256k1.r ∧
      kp.sec < ofLE secpOrderBytes)
    (hf : Fit feeType ins outs fee kp) (root : Fr)
    (hroot : ∀ i ∈ ins, (info i).root = root ∧ (info i).path.length = 20 ∧ (∀ n ∈ (info i).path, GoodNode n) ∧
      payerRoot Rescue.blsParams (X.words kp.pub) (X.payerOf i) = root)
    (hfee : ∃ i ∈ ins, i.ty = feeType) (hin : ∀ i ∈ ins, i.ty ≠ feeType → ∃ o ∈ outs, o.ty = i.ty)
    (hout : ∀ o ∈ outs, ∃ i ∈ ins, i.ty = o.ty)
    (hinj : ∀ i ∈ ins, ∀ j ∈ ins, X.asScalar i.ty = X.asScalar j.ty → i.ty = j.ty)
    (h : Hs) (hM : M.Complete Y xfrFoldLabel h (X.foldKey kp)) (rand : List (ZMod SimFr.secq256k1.r × ZMod SimFr.secq256k1.r))
    (hr : rand.length = 3) (r : Fr) (coins : Coins Fr) (hc : GoodCoins coins) :
    ∃ pre q w, X.initXfr Rescue.blsParams feeType ins outs fee kp = .ok pre ∧
    E.proverFirst (transferCs Rescue.blsParams dbg SimFr.secq256k1 secpOrderBytes (X.asScalar feeType) ins.length outs.length 20) = .ok q ∧
    E'.load B circuit' (some common) (some specific) ins.length outs.length = .ok w ∧
    ∃ (online : List Fr) (cmW : List G1) (bad : Fr → Finset Fr), (∀ beta, (bad beta).card ≤ 5 * (w.cs.size - 1)) ∧ w.cs.size ≤ 2 ^ 15 ∧
    ∀ O : Source G1,
      let drw := drawn O q (startXfr (xfrTranscript ins.length outs.length)) online cmW
      (drw.2 ∈ bad drw.1 → X.finishXfr Rescue.blsParams (liveXfrProver E O coins) Y M dbg secpOrderBytes feeType (q, w) pre h rand r = .panic) ∧
      (drw.2 ∉ bad drw.1 →
        ∃ note, X.finishXfr Rescue.blsParams (liveXfrProver E O coins) Y M dbg secpOrderBytes feeType (q, w) pre h rand r = .ok note ∧
          (liveXfrExt P O).verifyNote Y (q, w) note root h = .ok () ∧
          note.body.inputs = ins.map (fun i => nullify Rescue.blsParams (X.words kp.pub) (Anon.Spec.skWords kp.sec)
            ((info i).uid.toNat : Fr) (i.amount.toNat : Fr) (X.asScalar i.ty)) ∧
          note.body.outputs = outs.map (fun o => commit Rescue.blsParams (X.words o.pub) o.blind (o.amount.toNat : Fr) (X.asScalar o.ty)) ∧
          note.body.fee = fee ∧ note.body.memos = outs.filterMap (·.memo)) := by
  have i1 : 1 ≤ ins.length := List.length_pos_iff.mpr hf.insNe
  have o1 : 1 ≤ outs.length := List.length_pos_iff.mpr hf.outsNe
  obtain ⟨v, w, hv, hw, hl⟩ := C88_load E E' B hB hB' hB'' _ circuit' common specific hfiles ins.length outs.length i1 h6 o1 h6'
  rw [Env.create, Option.getD_some] at hv
  obtain ⟨q, hq, hv⟩ := Res.bind_eq_ok.mp hv
  obtain rfl := Res.ok.inj hv
  obtain ⟨cs, vars, e1, hb, hwf, e, he, z1⟩ := transfer_circuit dbg (X.asScalar feeType) ins.length outs.length i1 h6 o1 h6'
  have h15 : 2 ^ e ≤ 2 ^ 15 := Nat.pow_le_pow_right (by norm_num) he
  have hqs := hq
  rw [e1] at hq
  have hp := goodBls
  have wf' : ∀ cs' : CS Fr, (∃ w vars, buildMultiXfr Rescue.blsParams
      (foldingCircuit Rescue.blsParams dbg SimFr.secq256k1 secpOrderBytes w) (ins.map X.payerOf) (outs.map X.payeeFor) (X.words kp.pub)
      (Anon.Spec.skWords kp.sec) (fee.toNat : Fr) (X.asScalar feeType) CS.new = some (vars, cs')) → WF cs' :=
    fun _ ⟨_, _, h⟩ => wf_transfer (by simpa using h6) (by simpa using h6') h
  generalize Rescue.blsParams = p at hp hb wf' hroot hqs ⊢
  obtain ⟨pre, hpre, cs', hsh, hbu, -, hsat, h3⟩ := transfer_reduces p X hp (le_of_lt (lt_trans (by norm_num) order_big)) dbg secq_fold
    (by decide) secpOrderBytes secpOrder_ok.1 Y M _ (defaultFold_consistent _ (by decide)) _ _ _ _ _ feeType vars cs hb ins outs fee kp hco hs hk
    hf root (fun i hi => ⟨(hroot i hi).1, (hroot i hi).2.2⟩) hfee hin hout hinj (by
      rw [List.map_replicate, eq_comm, List.eq_replicate_iff]
      refine ⟨by simp, fun x hx => ?_⟩
      obtain ⟨i, hi, rfl⟩ := List.mem_map.mp hx
      rw [(hroot i hi).2.1]
      simp [fakePayer]) (by simp) h hM rand hr r
  obtain ⟨hqcs, cmW, bad, hcard, hpl⟩ := H.plonk hP cs hwf e (le_trans he (by norm_num)) z1 (by rw [z1]; omega) q (.inl hq) w hw cs' hsh
    (wf' _ hbu) hsat coins hc
  have hsw : w.cs.size = cs.gates.length := by
    rw [(C88_shrink_keeps _ _ hw).2.1, ← hqcs]
    rfl
  refine ⟨pre, q, w, hpre, hqs, hl, cs'.online, cmW, bad, fun b => le_trans (hcard b) (by rw [hsw]), by rw [hsw, z1]; exact h15,
    fun O => ?_⟩
  obtain ⟨p1, p2⟩ := hpl O (startXfr (xfrTranscript ins.length outs.length))
  obtain ⟨r1, r2⟩ := h3 _ _ (liveXfrProver E O coins) (liveXfrExt P O) (q, w)
  refine ⟨fun h => r1 (p1 h), fun h => ?_⟩
  obtain ⟨pf, g1, g2⟩ := p2 h
  exact r2 pf g1 g2

end

end

end

end Verif.Setup
