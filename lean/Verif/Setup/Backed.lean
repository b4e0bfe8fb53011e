import Verif.Setup.Live
import Verif.Snark.Sound

/-!
C95, the part that holds: with a verifier that draws `u` after the opening proofs and reads four values of permutation polynomials
(the two repairs of C70), a note is backed by the assignment that its committed wire polynomials hold, or it is refused except for
few challenges.
-/

namespace Verif.Setup

open Polynomial
open Verif.Poly Verif.Plonk Verif.Snark Verif.Anon Verif.SimFr
open Verif.Plonk.Spec (Sat)
open Verif.Snark.Spec (readOff)
open Verif.Anon.Spec
open Verif.StateComm (Collide)
open Verif.AnonCreds (Pairing)

namespace Spec

/-- a run of a prover that knows its polynomials, with the challenges it gets, in the order in which they are exchanged -/
structure Play (F : Type) [Semiring F] where
  w : Nat → F[X]
  beta : F
  gamma : F
  z : F[X]
  alpha : F
  ts : List F[X]
  zeta : F
  wv : Nat → F
  σv : Nat → F
  zv : F
  v : F
  q1 : F[X]
  q2 : F[X]
  u : F

/-- the proof that is sent, when the secret of the reference string is `s` -/
noncomputable def Play.proof {F G1 : Type} [Field F] [AddCommGroup G1] [Module F G1] (pl : Play F) (g : G1) (s : F) : Snark.Proof G1 F :=
  Proof.mk ((List.range 5).map fun j => (pl.w j).eval s • g) (pl.ts.map fun t => t.eval s • g) (pl.z.eval s • g)
    ((List.range 5).map pl.wv) pl.zv ((List.range 4).map pl.σv) (pl.q1.eval s • g) (pl.q2.eval s • g)

/-- For a system of `n` gates and a prover whose polynomials have degree at most `N`, `acc` holds for few challenges and secrets
only: each of them falls into a small set that is fixed by what was sent before. -/
def FewAccepted {F : Type} [Field F] (n N : Nat) (w : Nat → F[X]) (acc : Play F → F → Prop) : Prop :=
  ∃ B : Finset F, B.card ≤ 5 * n ∧ ∀ beta ∉ B,
  ∃ Γ : Finset F, Γ.card ≤ 5 * n ∧ ∀ gamma ∉ Γ, ∀ z : F[X], z.natDegree ≤ N →
  ∃ A : Finset F, A.card ≤ 5 ∧ ∀ alpha ∉ A, ∀ ts : List F[X], ts ≠ [] → (∀ t ∈ ts, t.natDegree ≤ N) →
  ∃ Z : Finset F, Z.card ≤ 6 * N + ts.length * (n + 2) ∧ ∀ zeta ∉ Z, zeta ^ n ≠ 1 → ∀ (wv σv : Nat → F) (zv : F),
  ∃ V : Finset F, V.card ≤ 9 ∧ ∀ v ∉ V, ∀ q1 q2 : F[X], q1.natDegree ≤ N → q2.natDegree ≤ N →
  ∃ U : Finset F, U.card ≤ 1 ∧ ∀ u ∉ U,
  ∃ S : Finset F, S.card ≤ N + 1 ∧ ∀ s ∉ S, ¬ acc ⟨w, beta, gamma, z, alpha, ts, zeta, wv, σv, zv, v, q1, q2, u⟩ s

theorem FewAccepted.mono {F : Type} [Field F] {n N : Nat} {w : Nat → F[X]} {acc acc' : Play F → F → Prop} (h : FewAccepted n N w acc)
    (hi : ∀ pl s, acc' pl s → acc pl s) : FewAccepted n N w acc' := by
  obtain ⟨B, b1, h⟩ := h
  refine ⟨B, b1, fun beta hb => ?_⟩
  obtain ⟨Γ, g1, h⟩ := h beta hb
  refine ⟨Γ, g1, fun gamma hg z hz => ?_⟩
  obtain ⟨A, a1, h⟩ := h gamma hg z hz
  refine ⟨A, a1, fun alpha ha ts ht hts => ?_⟩
  obtain ⟨Z, z1, h⟩ := h alpha ha ts ht hts
  refine ⟨Z, z1, fun zeta hz hz' wv σv zv => ?_⟩
  obtain ⟨V, v1, h⟩ := h zeta hz hz' wv σv zv
  refine ⟨V, v1, fun v hv q1 q2 d1 d2 => ?_⟩
  obtain ⟨U, u1, h⟩ := h v hv q1 q2 d1 d2
  refine ⟨U, u1, fun u hu => ?_⟩
  obtain ⟨S, s1, h⟩ := h u hu
  exact ⟨S, s1, fun s hs hacc => h s hs (hi _ _ hacc)⟩

theorem FewAccepted.never {F : Type} [Field F] {n N : Nat} {w : Nat → F[X]} {acc : Play F → F → Prop} (h : ∀ pl s, ¬ acc pl s) :
    FewAccepted n N w acc :=
  ⟨∅, by simp, fun _ _ => ⟨∅, by simp, fun _ _ _ _ => ⟨∅, by simp, fun _ _ _ _ _ => ⟨∅, by simp, fun _ _ _ _ _ _ =>
    ⟨∅, by simp, fun _ _ _ _ _ _ => ⟨∅, by simp, fun _ _ => ⟨∅, by simp, fun s _ => h _ s⟩⟩⟩⟩⟩⟩⟩

end Spec

open Spec

section
variable {G1 G2 Gt : Type} [AddCommGroup G1] [AddCommGroup G2] [Module Fr G1] [Module Fr G2] [AddCommGroup Gt] [Module Fr Gt]
  [DecidableEq Gt]

/-- the verifier after the challenges of a run, with the key of `cs`; not code of the repository, which draws `u` earlier -/
noncomputable def verifyLate (P : Pairing Fr G1 G2 Gt) (cs : CS Fr) (d : Nat) (tr : Tr Fr G1) (pl : Play Fr) (s : Fr) (pi : List Fr)
    (pf : Snark.Proof G1 Fr) : Bool :=
  match verifierWith (fun _ _ => pl.v) P (setup P d s)
    (pkOf s P.base1 (blsRoot (quotSize cs.gates.length)) (blsRoot cs.gates.length) kappa cs).vk pi pf
    ⟨pl.beta, pl.gamma, pl.alpha, pl.zeta, pl.u⟩ tr with
  | .ok _ => true
  | _ => false

/-- the assignment held by the committed wires satisfies the system, or few runs end in acceptance -/
theorem caught (P : Pairing Fr G1 G2 Gt) (hP : NonDegenerate P) {cs : CS Fr} (hwf : WF cs) {e : Nat} (he : e ≤ 29)
    (hsz : cs.gates.length = 2 ^ e) (N : Nat) (hN : 2 ^ e ≤ N) (w : Nat → Fr[X]) (hw : ∀ j < 5, (w j).natDegree ≤ N) (pi : List Fr) :
    Sat cs (readOff (blsRoot (2 ^ e)) cs w) pi ∨
      FewAccepted (2 ^ e) N w (fun pl s => ∃ d tr, verifyLate P cs d tr pl s pi (pl.proof P.base1 s) = true) := by
  obtain ⟨-, D⟩ := C94_domain (fun x l => x ^ Nat.ofDigits (2 ^ 64) l) (fun _ _ => rfl) e he
  by_cases hs : Sat cs (readOff (blsRoot (2 ^ e)) cs w) pi
  · exact .inl hs
  right
  have h := C70_extracts_late_u_partial P hP (rootM := blsRoot (quotSize (2 ^ e))) (root := blsRoot (2 ^ e)) (κ := kappa) hwf
    (by rw [hsz]; exact D) (by rw [hsz]; exact fun a ha b hb => C94_places_distinct e (by omega) a b ha hb) pi N (by omega) w hw hs
  rw [hsz] at h
  have h' : FewAccepted (2 ^ e) N w (fun pl s => ∃ d tr, verifierWith (fun _ _ => pl.v) P (setup P d s)
      (pkOf s P.base1 (blsRoot (quotSize (2 ^ e))) (blsRoot (2 ^ e)) kappa cs).vk pi (pl.proof P.base1 s)
      ⟨pl.beta, pl.gamma, pl.alpha, pl.zeta, pl.u⟩ tr = .ok ()) := by
    obtain ⟨B, b1, h⟩ := h
    refine ⟨B, b1, fun beta hb => ?_⟩
    obtain ⟨Γ, g1, h⟩ := h beta hb
    refine ⟨Γ, g1, fun gamma hg z hz => ?_⟩
    obtain ⟨A, a1, h⟩ := h gamma hg z hz
    refine ⟨A, a1, fun alpha ha ts ht hts => ?_⟩
    obtain ⟨Z, z1, h⟩ := h alpha ha ts ht hts
    refine ⟨Z, z1, fun zeta hz hz' wv σv zv => ?_⟩
    obtain ⟨V, v1, h⟩ := h zeta hz hz' wv σv zv
    refine ⟨V, v1, fun v hv q1 q2 d1 d2 => ?_⟩
    obtain ⟨U, u1, h⟩ := h v hv q1 q2 d1 d2
    refine ⟨U, u1, fun u hu => ?_⟩
    obtain ⟨S, s1, h⟩ := h u hu
    exact ⟨S, s1, fun s hs ⟨d, tr, hacc⟩ => h s hs d tr hacc⟩
  refine h'.mono fun pl s ⟨d, tr, hacc⟩ => ⟨d, tr, ?_⟩
  unfold verifyLate at hacc
  rw [hsz] at hacc
  split at hacc
  · rename_i heq
    exact heq
  · cases hacc

/-! ### Notes -/

section
variable {S : Xfr.Types} {Q : SimFr.Params} {G Hs Mp : Type}

/-- the verifiers of conversions with the repaired proof system -/
noncomputable def lateExt (P : Pairing Fr G1 G2 Gt) (X : ConvExt S Q Fr Unit (Snark.Proof G1 Fr)) (cs : CS Fr) (d : Nat) (tr : Tr Fr G1)
    (pl : Play Fr) (s : Fr) : ConvExt S Q Fr Unit (Snark.Proof G1 Fr) :=
  { X with plonk := fun _ _ pi pf => verifyLate P cs d tr pl s pi pf }

/-- the verifier of transfers with the repaired proof system -/
noncomputable def lateXfrExt (P : Pairing Fr G1 G2 Gt) (cs : CS Fr) (d : Nat) (tr : Tr Fr G1) (pl : Play Fr) (s : Fr) :
    XfrExt Fr Unit (Snark.Proof G1 Fr) :=
  ⟨fun _ _ pi pf => verifyLate P cs d tr pl s pi pf⟩

/-- C95, transparent to anonymous.  Missing, because the code does not have it: the order of the challenges and the check of the
number of values (see `C95_ar_to_abar_counterfeit_violated`). -/
theorem C95_ar_to_abar_backed_partial (P : Pairing Fr G1 G2 Gt) (hP : NonDegenerate P) (X : ConvExt S Q Fr Unit (Snark.Proof G1 Fr))
    (ser : ArToAbarBody S Fr (Snark.Proof G1 Fr) → Option Bytes) (t : Payee Fr) (vars : PayeeVars) (cs : CS Fr)
    (hb : buildArToAbar Rescue.blsParams t CS.new = some (vars, cs)) (N : Nat) (hN : 512 ≤ N) (w : Nat → Fr[X])
    (hw : ∀ j < 5, (w j).natDegree ≤ N) (input : Xfr.BlindAssetRecord S) (com : Fr) :
    (∃ a ty, input.amount = .plain a ∧ input.assetType = .plain ty ∧
      ∀ y : CommitIn Fr, y.eval Rescue.blsParams = com → (y.amount = (a.toNat : Fr) ∧ y.ty = (X.asNat ty : Fr)) ∨
        Collides Rescue.blsParams
          (openCollision Rescue.blsParams (readOff (blsRoot 512) cs w 0) (payeeVal (readOff (blsRoot 512) cs w) vars).opening y).1
          (openCollision Rescue.blsParams (readOff (blsRoot 512) cs w 0) (payeeVal (readOff (blsRoot 512) cs w) vars).opening y).2) ∨
    FewAccepted 512 N w (fun pl s => ∃ d tr memo sig,
      (lateExt P X cs d tr pl s).verifyArToAbar ser () ⟨⟨input, com, pl.proof P.base1 s, memo⟩, sig⟩ = .ok ()) := by
  have hz := (C93_ar_to_abar _ bls_rounds t vars cs hb).1
  have hwf := wf_arToAbar hb
  have hp := goodBls
  generalize Rescue.blsParams = p at hp hb ⊢
  cases ha : input.amount with
  | conf =>
    refine .inr (.never ?_)
    rintro pl s ⟨d, tr, memo, sig, h⟩
    unfold ConvExt.verifyArToAbar at h
    obtain ⟨m, -, h⟩ := Res.bind_eq_ok.mp h
    split at h
    · unfold ConvExt.verifyArToAbarBody at h
      simp [ha] at h
    · cases h
  | plain a =>
    cases ht : input.assetType with
    | conf =>
      refine .inr (.never ?_)
      rintro pl s ⟨d, tr, memo, sig, h⟩
      unfold ConvExt.verifyArToAbar at h
      obtain ⟨m, -, h⟩ := Res.bind_eq_ok.mp h
      split at h
      · unfold ConvExt.verifyArToAbarBody at h
        simp [ha, ht] at h
      · cases h
    | plain ty =>
      rcases caught P hP hwf (e := 9) (by norm_num) hz N hN w hw [(a.toNat : Fr), (X.asNat ty : Fr), com] with hs | hf
      · refine .inl ⟨a, ty, rfl, rfl, fun y hy => ?_⟩
        rcases C73_ar_to_abar_sound p hp t vars cs hb _ _ _ _ hs y hy with ⟨h1, h2, -⟩ | hc
        · exact .inl ⟨h1, h2⟩
        · exact .inr hc
      · refine .inr (hf.mono ?_)
        rintro pl s ⟨d, tr, memo, sig, h⟩
        refine ⟨d, tr, ?_⟩
        unfold ConvExt.verifyArToAbar at h
        obtain ⟨m, -, h⟩ := Res.bind_eq_ok.mp h
        split at h
        · unfold ConvExt.verifyArToAbarBody at h
          simp only [ha, ht] at h
          split at h
          · rename_i hpl
            exact hpl
          · cases h
        · cases h

/-- the public inputs of the folding: a commitment and six simulated elements of six limbs -/
theorem verifierInput_length {comm : Fr} {beta lambda : ZMod SimFr.secq256k1.r} {resps : List (ZMod SimFr.secq256k1.r)} {l : List Fr}
    (h : verifierInput SimFr.secq256k1 comm beta lambda resps = some l) : l.length = 37 := by
  unfold verifierInput at h
  obtain ⟨resp, -, h⟩ := Option.bind_eq_some_iff.mp h
  obtain rfl := Option.some.inj h
  simp only [List.length_append, simOf, StateComm.ofBig_limbs_length]
  rfl

section
variable [AddCommGroup G] [DecidableEq G] [Module (ZMod SimFr.secq256k1.r) G]

/-- C95, anonymous to transparent. -/
theorem C95_abar_to_ar_backed_partial (P : Pairing Fr G1 G2 Gt) (hP : NonDegenerate P) (X : ConvExt S Q Fr Unit (Snark.Proof G1 Fr))
    (Y : FoldExt SimFr.secq256k1 Fr G Hs Mp) (dbg : Bool) (wit : FoldWitness SimFr.secq256k1 Fr) (sp : Payer Fr)
    (hd : sp.path.length = 20) (pk0 : Anon.PK Fr) (sk0 : Anon.SK Fr) (vars : AbarVars FoldVars) (cs : CS Fr)
    (hb : buildAbarToAr Rescue.blsParams (foldingCircuit Rescue.blsParams dbg SimFr.secq256k1 secpOrderBytes wit) sp pk0 sk0 CS.new =
      some (vars, cs)) (N : Nat) (hN : 8192 ≤ N) (w : Nat → Fr[X]) (hw : ∀ j < 5, (w j).natDegree ≤ N)
    (nul root : Fr) (output : Xfr.BlindAssetRecord S) (folding : FoldInst SimFr.secq256k1 Fr G Mp) (hs : Hs)
    (c : Merkle.Codec Fr) (ops : List (Merkle.Op Fr)) (hcap : Merkle.adds ops ≤ 3 ^ 20) (stored : List Fr)
    (hst : (Merkle.Spec.run ops).cur = leavesOf Rescue.blsParams stored) (t : Merkle.Tree)
    (ht : Merkle.runTree c (treeHash Rescue.blsParams) ops = some t) (hroot : t.getRoot c = some root) :
    (∃ a ty ch, output.amount = .plain a ∧ output.assetType = .plain ty ∧ Y.verify abarToArFoldLabel hs folding = .ok ch ∧
      ((∃ j : Nat, stored[j]? = some (commit Rescue.blsParams (pkVal (readOff (blsRoot 8192) cs w) vars.spend.pk)
            (spentVal (readOff (blsRoot 8192) cs w) vars.spend.payer).blind (a.toNat : Fr) (X.asNat ty : Fr)) ∧
          nul = nullify Rescue.blsParams (pkVal (readOff (blsRoot 8192) cs w) vars.spend.pk)
            (skVal (readOff (blsRoot 8192) cs w) vars.spend.sk) (j : Fr) (a.toNat : Fr) (X.asNat ty : Fr) ∧
          Folds Rescue.blsParams SimFr.secq256k1 (ofLE secpOrderBytes) folding.schnorr.comm ch.1 ch.2
            (folding.schnorr.responses.map (·.1)) (pkVal (readOff (blsRoot 8192) cs w) vars.spend.pk)
            (skVal (readOff (blsRoot 8192) cs w) vars.spend.sk) (foldVal SimFr.secq256k1 (readOff (blsRoot 8192) cs w) vars.fold)) ∨
        SpendBreak Rescue.blsParams stored (pkVal (readOff (blsRoot 8192) cs w) vars.spend.pk)
          (spentVal (readOff (blsRoot 8192) cs w) vars.spend.payer))) ∨
    FewAccepted 8192 N w (fun pl s => ∃ d tr,
      (lateExt P X cs d tr pl s).verifyAbarToAr Y () ⟨nul, output, root, pl.proof P.base1 s, folding⟩ root hs = .ok ()) := by
  have hz := (C93_abar_to_ar _ bls_rounds dbg wit sp hd pk0 sk0 vars cs hb).1
  have hpub := (C93_abar_to_ar _ bls_rounds dbg wit sp hd pk0 sk0 vars cs hb).2.2
  have hwf := wf_abarToAr hb
  have hp := goodBls
  generalize Rescue.blsParams = p at hp hb hst ht ⊢
  by_cases hok : ∃ a ty ch l, output.amount = .plain a ∧ output.assetType = .plain ty ∧
      Y.verify abarToArFoldLabel hs folding = .ok ch ∧ folding.input ch = .ok l
  · obtain ⟨a, ty, ch, l, ha, hty, hch, hfold⟩ := hok
    obtain ⟨h3, _, _, _, _, _, hsh⟩ := fold_ok hch
    obtain ⟨l', hi, hv⟩ := fold_input_ok folding (by rw [hsh.2]; exact h3) ch
    rw [hfold] at hi
    obtain rfl := Res.ok.inj hi
    rcases caught P hP hwf (e := 13) (by norm_num) hz N hN w hw ([nul, root, (a.toNat : Fr), (X.asNat ty : Fr)] ++ l) with hsat | hf
    · obtain ⟨t', ht', hin⟩ := C74_redeems_stored p hp dbg secq256k1 secq_fold secpOrderBytes secpOrder_ok.1 secpOrder_ok.2.1 wit sp hd pk0
        sk0 vars cs hb nul root _ _ l (by
          rw [← hwf.len, hpub, List.length_append, verifierInput_length hv]
          simp) _ ch.1 ch.2 _ hv _ hsat c ops hcap stored hst
      rw [ht] at ht'
      obtain rfl := Option.some.inj ht'
      exact .inl ⟨a, ty, ch, ha, hty, hch, hin hroot⟩
    · refine .inr (hf.mono ?_)
      rintro pl s ⟨d, tr, h⟩
      refine ⟨d, tr, ?_⟩
      unfold ConvExt.verifyAbarToAr at h
      simp only [ha, hty, hch, hfold, Res.bind_ok, ne_eq, not_true_eq_false, if_false] at h
      split at h
      · rename_i hpl
        exact hpl
      · cases h
  · refine .inr (.never ?_)
    rintro pl s ⟨d, tr, h⟩
    apply hok
    obtain ⟨-, -, hc⟩ := (verifyAbarToAr_iff _ Y () _ root hs).mp h
    unfold ConvExt.checkAbarToAr at hc
    obtain ⟨ch, hch, hc⟩ := Res.bind_eq_ok.mp hc
    obtain ⟨fold, hfold, hc⟩ := Res.bind_eq_ok.mp hc
    split at hc
    · rename_i a ty ha hty
      exact ⟨a, ty, ch, fold, ha, hty, hch, hfold⟩
    · cases hc

/-- C95, transfers.  As in C83, the assignment must hold one in the wire of the constant one, which the circuit does not ask for. -/
theorem C95_transfer_backed_partial {K : Type} (P : Pairing Fr G1 G2 Gt) (hP : NonDegenerate P)
    (Y : FoldExt SimFr.secq256k1 Fr G Hs Mp) (dbg : Bool) (wit : FoldWitness SimFr.secq256k1 Fr)
    (payers : List (Payer Fr)) (payees : List (Payee Fr)) (hd : ∀ s ∈ payers, s.path.length = 20) (h6 : payers.length ≤ 6)
    (h6' : payees.length ≤ 6) (pk0 : Anon.PK Fr) (sk0 : Anon.SK Fr) (fee0 feeType : Fr) (vars : XfrVars FoldVars) (cs : CS Fr)
    (hb : buildMultiXfr Rescue.blsParams (foldingCircuit Rescue.blsParams dbg SimFr.secq256k1 secpOrderBytes wit) payers payees pk0 sk0
      fee0 feeType CS.new = some (vars, cs)) (N : Nat) (hN : cs.gates.length ≤ N) (w : Nat → Fr[X])
    (hw : ∀ j < 5, (w j).natDegree ≤ N) (h1 : readOff (blsRoot cs.gates.length) cs w 1 = 1)
    (body : XfrBody Fr K) (hn : body.inputs.length = payers.length) (hc : body.outputs.length = payees.length)
    (folding : FoldInst SimFr.secq256k1 Fr G Mp) (hs : Hs)
    (c : Merkle.Codec Fr) (ops : List (Merkle.Op Fr)) (hcap : Merkle.adds ops ≤ 3 ^ 20) (stored : List Fr)
    (hst : (Merkle.Spec.run ops).cur = leavesOf Rescue.blsParams stored) (t : Merkle.Tree)
    (ht : Merkle.runTree c (treeHash Rescue.blsParams) ops = some t) (hroot : t.getRoot c = some body.root) :
    (∃ ch, Y.verify xfrFoldLabel hs folding = .ok ch ∧
      Folds Rescue.blsParams SimFr.secq256k1 (ofLE secpOrderBytes) folding.schnorr.comm ch.1 ch.2 (folding.schnorr.responses.map (·.1))
        (pkVal (readOff (blsRoot cs.gates.length) cs w) vars.pk) (skVal (readOff (blsRoot cs.gates.length) cs w) vars.sk)
        (foldVal SimFr.secq256k1 (readOff (blsRoot cs.gates.length) cs w) vars.fold) ∧
      (Honours Rescue.blsParams stored (pkVal (readOff (blsRoot cs.gates.length) cs w) vars.pk)
          (skVal (readOff (blsRoot cs.gates.length) cs w) vars.sk)
          (vars.payers.map (spentVal (readOff (blsRoot cs.gates.length) cs w)))
          (vars.payees.map (payeeVal (readOff (blsRoot cs.gates.length) cs w))) feeType body ∨
        ∃ s ∈ vars.payers.map (spentVal (readOff (blsRoot cs.gates.length) cs w)),
          (spendBreak Rescue.blsParams stored (pkVal (readOff (blsRoot cs.gates.length) cs w) vars.pk) s).Valid
            (treeHash Rescue.blsParams))) ∨
    FewAccepted cs.gates.length N w (fun pl s => ∃ d tr,
      (lateXfrExt P cs d tr pl s).verifyNote Y () ⟨body, pl.proof P.base1 s, folding⟩ body.root hs = .ok ()) := by
  obtain ⟨hz, hpub⟩ := C93_transfer_sizes _ bls_rounds dbg wit payers payees pk0 sk0 fee0 feeType hd h6 h6' vars cs hb
  obtain ⟨e, he, hsz⟩ : ∃ e, e ≤ 29 ∧ cs.gates.length = 2 ^ e := by
    rw [hz]
    split_ifs
    · exact ⟨13, by norm_num, by norm_num⟩
    · exact ⟨14, by norm_num, by norm_num⟩
    · exact ⟨15, by norm_num, by norm_num⟩
  have hwf := wf_transfer h6 h6' hb
  have hp := goodBls
  generalize Rescue.blsParams = p at hp hb hst ht ⊢
  by_cases hok : ∃ ch l, Y.verify xfrFoldLabel hs folding = .ok ch ∧ folding.input ch = .ok l
  · obtain ⟨ch, l, hch, hfold⟩ := hok
    obtain ⟨h3, _, _, _, _, _, hsh⟩ := fold_ok hch
    obtain ⟨l', hi, hv⟩ := fold_input_ok folding (by rw [hsh.2]; exact h3) ch
    rw [hfold] at hi
    obtain rfl := Res.ok.inj hi
    have hlen : (xfrPublic body.inputs body.root body.outputs body.fee ++ l).length = cs.pubVars.length := by
      rw [← hwf.len, hpub, List.length_append, verifierInput_length hv]
      unfold xfrPublic
      simp only [List.length_append, List.length_cons, List.length_nil]
      omega
    have hca := caught P hP hwf he hsz N (by omega) w hw (xfrPublic body.inputs body.root body.outputs body.fee ++ l)
    rw [← hsz] at hca
    rcases hca with hsat | hf
    · left
      -- the theorem of C83 for a proof system that accepts when the read-off assignment satisfies the circuit
      classical
      have ho : 7 * 2 ^ 64 < ScalarRepr.order Fr := lt_trans (by norm_num) order_big
      have h83 := C83_transfer_note_sound_partial (K := K) p hp
        (⟨fun _ _ pubs _ => decide (pubs.length = cs.pubVars.length ∧ Sat cs (readOff (blsRoot cs.gates.length) cs w) pubs)⟩ :
          XfrExt Fr Unit Unit) Y () dbg secq_fold secpOrderBytes secpOrder_ok.1 secpOrder_ok.2.1 wit payers payees hd pk0 sk0 fee0 feeType
        (lt_of_le_of_lt (Nat.mul_le_mul_right _ (le_trans h6 (by norm_num))) ho)
        (lt_of_le_of_lt (Nat.mul_le_mul_right _ (Nat.succ_le_succ h6')) ho) vars cs hb
        (fun _ => readOff (blsRoot cs.gates.length) cs w) (fun tr pubs pf h => of_decide_eq_true h) ⟨body, (), folding⟩ body.root hs
        (by
          unfold XfrExt.verifyNote XfrExt.checkNote XfrExt.verifyProof
          simp only [ne_eq, not_true_eq_false, if_false, hch, hfold, Res.bind_ok]
          exact if_pos (decide_eq_true ⟨hlen, hsat⟩)) h1 hn hc c ops hcap stored hst t ht hroot
      exact h83.2
    · refine .inr (hf.mono ?_)
      rintro pl s ⟨d, tr, h⟩
      refine ⟨d, tr, ?_⟩
      obtain ⟨-, ch', fold', h1', h2', -, hpl⟩ := verifyNote_ok h
      have h1' : Y.verify xfrFoldLabel hs folding = .ok ch' := h1'
      have h2' : folding.input ch' = .ok fold' := h2'
      rw [hch] at h1'
      obtain rfl := Res.ok.inj h1'
      rw [hfold] at h2'
      obtain rfl := Res.ok.inj h2'
      exact hpl
  · refine .inr (.never ?_)
    rintro pl s ⟨d, tr, h⟩
    obtain ⟨-, ch', fold', h1', h2', -⟩ := verifyNote_ok h
    exact hok ⟨ch', fold', h1', h2'⟩

/-! ### Confidential records -/

variable [AddCommGroup S.G] [DecidableEq S.G] [Module (ZMod SimFr.ristretto.r) S.G]

/-- the public inputs of the inspection: a commitment and four simulated elements of six limbs -/
theorem inspectInput_length {comm : Fr} {beta lambda : ZMod SimFr.ristretto.r} {resps : List (ZMod SimFr.ristretto.r)} {l : List Fr}
    (h : inspectInput SimFr.ristretto comm beta lambda resps = some l) : l.length = 25 := by
  unfold inspectInput at h
  obtain ⟨resp, -, h⟩ := Option.bind_eq_some_iff.mp h
  obtain rfl := Option.some.inj h
  simp only [List.length_append, simOf, StateComm.ofBig_limbs_length]
  rfl

/-- a proof system that accepts when the assignment of the proof satisfies the system -/
noncomputable def idealExt {Pf Q' : Type} (X : ConvExt S SimFr.ristretto Fr Unit Q') (cs : CS Fr) (A : Pf → Nat → Fr) :
    ConvExt S SimFr.ristretto Fr Unit Pf :=
  { gens := X.gens, decompress := X.decompress, asNat := X.asNat, oracle := X.oracle, sigVerify := X.sigVerify
    plonk := fun _ _ pubs pf => by classical exact decide (pubs.length = cs.pubVars.length ∧ Sat cs (A pf) pubs) }

omit [AddCommGroup S.G] [DecidableEq S.G] [Module (ZMod SimFr.ristretto.r) S.G] in
theorem idealExt_knows {Pf Q' : Type} (X : ConvExt S SimFr.ristretto Fr Unit Q') (cs : CS Fr) (A : Pf → Nat → Fr) (label : String) :
    Knows (idealExt X cs A) () label cs A := by
  classical
  exact fun pubs pf h => of_decide_eq_true h

/-- one note: accepted by the ideal proof system, or accepted for few challenges -/
theorem bar_to_abar_caught (P : Pairing Fr G1 G2 Gt) (hP : NonDegenerate P)
    (X : ConvExt S SimFr.ristretto Fr Unit (Snark.Proof G1 Fr)) {cs : CS Fr} (hwf : WF cs) (hz : cs.gates.length = 2048)
    (hpub : cs.pubCons.length = 26) (N : Nat) (hN : 2048 ≤ N) (w : Nat → Fr[X]) (hw : ∀ j < 5, (w j).natDegree ≤ N)
    (r : Xfr.BlindAssetRecord S) (com : Fr) (sch : DelegatedSchnorr.Proof (ZMod SimFr.ristretto.r) S.G Fr)
    {Pf : Type} (A : Pf → Nat → Fr) (pf : Pf) (hA : A pf = readOff (blsRoot 2048) cs w) :
    (idealExt X cs A).verifyBarToAbarBody () r com sch pf = .ok () ∨
    FewAccepted 2048 N w (fun pl s => ∃ d tr,
      (lateExt P X cs d tr pl s).verifyBarToAbarBody () r com sch (pl.proof P.base1 s) = .ok ()) := by
  classical
  by_cases hok : ∃ c out input, bothPlain r = false ∧ X.recordComs r = .ok c ∧
      DelegatedSchnorr.verify X.gens X.oracle [.label barToAbarLabel, .bound com] [c.1, c.2] sch = .ok out ∧
      inspectInput SimFr.ristretto sch.comm out.1 out.2.1 (sch.responses.map (·.1)) = some input
  · obtain ⟨c, out, input, hk, hc, hv, hi⟩ := hok
    rcases caught P hP hwf (e := 11) (by norm_num) hz N hN w hw (com :: input) with hs | hf
    · left
      unfold ConvExt.verifyBarToAbarBody
      simp only [hk, Bool.false_eq_true, if_false, (show (idealExt X cs A).recordComs r = _ from hc), Res.bind_ok]
      rw [show DelegatedSchnorr.verify (idealExt X cs A).gens (idealExt X cs A).oracle _ [c.1, c.2] sch = .ok out from hv]
      simp only [Res.bind_ok, hi, Res.unwrap_some]
      refine if_pos (decide_eq_true ⟨?_, by rw [hA]; exact hs⟩)
      rw [List.length_cons, inspectInput_length hi, ← hwf.len, hpub]
    · refine .inr (hf.mono ?_)
      rintro pl s ⟨d, tr, h⟩
      refine ⟨d, tr, ?_⟩
      obtain ⟨out', input', hv', hi', hpl⟩ := barToAbar_ok (c := c) (show (lateExt P X cs d tr pl s).recordComs r = _ from hc) h
      rw [show DelegatedSchnorr.verify (lateExt P X cs d tr pl s).gens (lateExt P X cs d tr pl s).oracle _ [c.1, c.2] sch = .ok out from hv]
        at hv'
      obtain rfl := Res.ok.inj hv'
      rw [hi] at hi'
      obtain rfl := Option.some.inj hi'
      exact hpl
  · refine .inr (.never ?_)
    rintro pl s ⟨d, tr, h⟩
    apply hok
    unfold ConvExt.verifyBarToAbarBody at h
    cases hk : bothPlain r with
    | true =>
      rw [hk] at h
      cases h
    | false =>
      rw [hk] at h
      simp only [Bool.false_eq_true, if_false] at h
      obtain ⟨c, hc, h⟩ := Res.bind_eq_ok.mp h
      obtain ⟨out, hv, h⟩ := Res.bind_eq_ok.mp h
      obtain ⟨input, hi, -⟩ := Res.bind_eq_ok.mp h
      refine ⟨c, out, input, rfl, hc, hv, ?_⟩
      cases hii : inspectInput SimFr.ristretto sch.comm out.1 out.2.1 (sch.responses.map (·.1)) with
      | none =>
        rw [hii] at hi
        cases hi
      | some i =>
        rw [hii] at hi
        exact congrArg some (Res.ok.inj hi)

/-- C95, confidential to anonymous: the four notes of `C77_bar_to_abar_conserves` carry the assignments read off their committed wires,
or one of the four is accepted for few challenges only. -/
theorem C95_bar_to_abar_backed_partial (P : Pairing Fr G1 G2 Gt) (hP : NonDegenerate P)
    (X : ConvExt S SimFr.ristretto Fr Unit (Snark.Proof G1 Fr)) (dbg : Bool) (t : Payee Fr) (wit : InspWitness SimFr.ristretto Fr)
    (vars : BarVars Fr) (cs : CS Fr) (hb : buildBarToAbar Rescue.blsParams dbg SimFr.ristretto t wit CS.new = some (vars, cs))
    (N : Nat) (hN : 2048 ≤ N) (w : Fin 2 → Fin 2 → Nat → Fr[X]) (hw : ∀ b l, ∀ j < 5, (w b l j).natDegree ≤ N)
    (r : Xfr.BlindAssetRecord S) (com comm : Fr) (randomizers : List S.G)
    (responses : Fin 2 → List (ZMod SimFr.ristretto.r × ZMod SimFr.ristretto.r))
    (H : Fin 2 → Fin 2 → DelegatedSchnorr.Tr (ZMod SimFr.ristretto.r) S.G Fr → ZMod SimFr.ristretto.r)
    (o : RecOpening SimFr.ristretto) (ho : o.Opens X r) (beta : Fin 2 → ZMod SimFr.ristretto.r)
    (lambda : Fin 2 → Fin 2 → ZMod SimFr.ristretto.r)
    (hbeta : ∀ b l, H b l (DelegatedSchnorr.point1 X.gens [.label barToAbarLabel, .bound com]
      [(o.coms X.gens).1, (o.coms X.gens).2] comm randomizers) = beta b) (hne : beta 0 ≠ beta 1)
    (hlambda : ∀ b l, H b l (DelegatedSchnorr.point2 (DelegatedSchnorr.point1 X.gens [.label barToAbarLabel, .bound com]
      [(o.coms X.gens).1, (o.coms X.gens).2] comm randomizers) (responses b)) = lambda b l)
    (hlne : ∀ b, lambda b 0 ≠ lambda b 1) (y : CommitIn Fr) (hy : y.eval Rescue.blsParams = com) :
    let A := fun b l => readOff (blsRoot 2048) cs (w b l)
    ((y.amount = (o.amount : Fr) ∧ y.ty = (o.ty : Fr)) ∨
      (∃ b l, Collides Rescue.blsParams (openCollision Rescue.blsParams (A b l 0) (payeeVal (A b l) vars.out).opening y).1
          (openCollision Rescue.blsParams (A b l 0) (payeeVal (A b l) vars.out).opening y).2) ∨
      (∃ b l, Collide Rescue.blsParams ((inspVal SimFr.ristretto (A 0 0) vars.insp).calls Rescue.blsParams SimFr.ristretto)
        ((inspVal SimFr.ristretto (A b l) vars.insp).calls Rescue.blsParams SimFr.ristretto)) ∨
      Relation X.gens ((inspVal SimFr.ristretto (A 0 0) vars.insp).x : ZMod SimFr.ristretto.r) (o.amount : ZMod SimFr.ristretto.r)
        (o.blinds.1 + 2 ^ 32 * o.blinds.2) (responses 0)[0]? (responses 1)[0]? (beta 0) (beta 1) ∨
      Relation X.gens ((inspVal SimFr.ristretto (A 0 0) vars.insp).y : ZMod SimFr.ristretto.r) (o.ty : ZMod SimFr.ristretto.r) o.tyBlind
        (responses 0)[1]? (responses 1)[1]? (beta 0) (beta 1)) ∨
    ∃ b l, FewAccepted 2048 N (w b l) (fun pl s => ∃ d tr,
      (lateExt P { X with oracle := H b l } cs d tr pl s).verifyBarToAbarBody () r com ⟨comm, randomizers, responses b⟩
        (pl.proof P.base1 s) = .ok ()) := by
  intro A
  obtain ⟨hz, -, hpub⟩ := C93_bar_to_abar _ bls_rounds dbg t wit vars cs hb
  have hwf := wf_barToAbar hb
  have hp := goodBls
  generalize Rescue.blsParams = p at hp hb hy ⊢
  have key : ∀ b l, _ := fun b l => bar_to_abar_caught P hP { X with oracle := H b l } hwf hz (by rw [hpub]; simp) N hN (w b l)
    (hw b l) r com ⟨comm, randomizers, responses b⟩ (fun q : Fin 2 × Fin 2 => A q.1 q.2) (b, l) rfl
  by_cases hall : ∀ b l, (idealExt { X with oracle := H b l } cs (fun q : Fin 2 × Fin 2 => A q.1 q.2)).verifyBarToAbarBody () r com
      ⟨comm, randomizers, responses b⟩ (b, l) = .ok ()
  · left
    exact C77_bar_to_abar_conserves p hp dbg ristretto_insp ristretto_ge (idealExt X cs (fun q : Fin 2 × Fin 2 => A q.1 q.2)) () t wit
      vars cs hb (fun q => A q.1 q.2) (idealExt_knows X cs _ _) r com comm randomizers responses (fun b l => (b, l)) H hall o ho beta
      lambda hbeta hne hlambda hlne y hy
  · push Not at hall
    obtain ⟨b, l, hbl⟩ := hall
    exact .inr ⟨b, l, (key b l).resolve_left hbl⟩

/-- one note: accepted by the ideal proof system, or accepted for few challenges -/
theorem abar_to_bar_caught (P : Pairing Fr G1 G2 Gt) (hP : NonDegenerate P)
    (X : ConvExt S SimFr.ristretto Fr Unit (Snark.Proof G1 Fr)) (Y : FoldExt SimFr.secq256k1 Fr G Hs Mp) {cs : CS Fr} (hwf : WF cs)
    (hz : cs.gates.length = 8192)
    (hpub : cs.pubCons.length = 64) (N : Nat) (hN : 8192 ≤ N) (w : Nat → Fr[X]) (hw : ∀ j < 5, (w j).natDegree ≤ N)
    (nul root : Fr) (r : Xfr.BlindAssetRecord S) (sch : DelegatedSchnorr.Proof (ZMod SimFr.ristretto.r) S.G Fr)
    (folding : FoldInst SimFr.secq256k1 Fr G Mp) (hs : Hs)
    {Pf : Type} (A : Pf → Nat → Fr) (pf : Pf) (hA : A pf = readOff (blsRoot 8192) cs w) :
    (idealExt X cs A).verifyAbarToBar Y () ⟨nul, r, sch, root, pf, folding⟩ root hs = .ok () ∨
    FewAccepted 8192 N w (fun pl s => ∃ d tr,
      (lateExt P X cs d tr pl s).verifyAbarToBar Y () ⟨nul, r, sch, root, pl.proof P.base1 s, folding⟩ root hs = .ok ()) := by
  classical
  by_cases hok : ∃ c out input ch l, bothPlain r = false ∧ X.recordComs r = .ok c ∧
      DelegatedSchnorr.verify X.gens X.oracle [.label abarToBarLabel, .bound nul] [c.1, c.2] sch = .ok out ∧
      inspectInput SimFr.ristretto sch.comm out.1 out.2.1 (sch.responses.map (·.1)) = some input ∧
      Y.verify abarToBarFoldLabel hs folding = .ok ch ∧
      verifierInput SimFr.secq256k1 folding.schnorr.comm ch.1 ch.2 (folding.schnorr.responses.map (·.1)) = some l
  · obtain ⟨c, out, input, ch, l, hk, hc, hv, hi, hch, hl⟩ := hok
    rcases caught P hP hwf (e := 13) (by norm_num) hz N hN w hw ([nul, root] ++ (input ++ l)) with hsat | hf
    · left
      unfold ConvExt.verifyAbarToBar ConvExt.checkAbarToBar
      simp only [hk, Bool.false_eq_true, if_false, ne_eq, not_true_eq_false,
        (show (idealExt X cs A).recordComs r = _ from hc), Res.bind_ok]
      rw [show DelegatedSchnorr.verify (idealExt X cs A).gens (idealExt X cs A).oracle _ [c.1, c.2] sch = .ok out from hv]
      simp only [Res.bind_ok, hi, Res.unwrap_some, hch, FoldInst.input, hl]
      refine if_pos (decide_eq_true ⟨?_, by rw [hA]; exact hsat⟩)
      rw [List.length_append, List.length_append, inspectInput_length hi, verifierInput_length hl, ← hwf.len, hpub]
      rfl
    · refine .inr (hf.mono ?_)
      rintro pl s ⟨d, tr, h⟩
      refine ⟨d, tr, ?_⟩
      obtain ⟨out', input', ch', l', hv', hi', hch', hl', hpl⟩ := abarToBar_ok (c := c)
        (show (lateExt P X cs d tr pl s).recordComs r = _ from hc) h
      simp only at hv' hi' hch' hl' hpl
      rw [show DelegatedSchnorr.verify (lateExt P X cs d tr pl s).gens (lateExt P X cs d tr pl s).oracle _ [c.1, c.2] sch = .ok out from hv]
        at hv'
      obtain rfl := Res.ok.inj hv'
      rw [hi] at hi'
      obtain rfl := Option.some.inj hi'
      rw [hch] at hch'
      obtain rfl := Res.ok.inj hch'
      rw [hl] at hl'
      obtain rfl := Option.some.inj hl'
      exact hpl
  · refine .inr (.never ?_)
    rintro pl s ⟨d, tr, h⟩
    apply hok
    cases hc : X.recordComs r with
    | ok c =>
      obtain ⟨out, input, ch, l, hv, hi, hch, hl, -⟩ := abarToBar_ok (c := c)
        (show (lateExt P X cs d tr pl s).recordComs r = _ from hc) h
      refine ⟨c, out, input, ch, l, ?_, rfl, hv, hi, hch, hl⟩
      unfold ConvExt.verifyAbarToBar at h
      cases hk : bothPlain r with
      | true =>
        simp only [hk, ne_eq, not_true_eq_false, if_false, if_true] at h
        cases h
      | false => rfl
    | err =>
      unfold ConvExt.verifyAbarToBar ConvExt.checkAbarToBar at h
      simp only [ne_eq, not_true_eq_false, if_false] at h
      split at h
      · cases h
      · obtain ⟨c, hc', -⟩ := Res.bind_eq_ok.mp h
        have hc' : X.recordComs r = .ok c := hc'
        rw [hc] at hc'
        cases hc'
    | panic =>
      unfold ConvExt.verifyAbarToBar ConvExt.checkAbarToBar at h
      simp only [ne_eq, not_true_eq_false, if_false] at h
      split at h
      · cases h
      · obtain ⟨c, hc', -⟩ := Res.bind_eq_ok.mp h
        have hc' : X.recordComs r = .ok c := hc'
        rw [hc] at hc'
        cases hc'

/-- C95, anonymous to confidential. -/
theorem C95_abar_to_bar_backed_partial (P : Pairing Fr G1 G2 Gt) (hP : NonDegenerate P)
    (X : ConvExt S SimFr.ristretto Fr Unit (Snark.Proof G1 Fr)) (Y : FoldExt SimFr.secq256k1 Fr G Hs Mp) (dbg : Bool)
    (wit : FoldWitness SimFr.secq256k1 Fr) (insp : InspWitness SimFr.ristretto Fr) (sp : Payer Fr) (hd : sp.path.length = 20)
    (pk0 : Anon.PK Fr) (sk0 : Anon.SK Fr) (vars : AbarBarVars Fr FoldVars) (cs : CS Fr)
    (hb : buildAbarToBar Rescue.blsParams (foldingCircuit Rescue.blsParams dbg SimFr.secq256k1 secpOrderBytes wit) dbg SimFr.ristretto sp
      pk0 sk0 insp CS.new = some (vars, cs))
    (N : Nat) (hN : 8192 ≤ N) (w : Fin 2 → Fin 2 → Nat → Fr[X]) (hw : ∀ b l, ∀ j < 5, (w b l j).natDegree ≤ N)
    (r : Xfr.BlindAssetRecord S) (nul root comm : Fr) (randomizers : List S.G)
    (responses : Fin 2 → List (ZMod SimFr.ristretto.r × ZMod SimFr.ristretto.r))
    (folding : Fin 2 → Fin 2 → FoldInst SimFr.secq256k1 Fr G Mp) (hs : Fin 2 → Fin 2 → Hs)
    (H : Fin 2 → Fin 2 → DelegatedSchnorr.Tr (ZMod SimFr.ristretto.r) S.G Fr → ZMod SimFr.ristretto.r)
    (o : RecOpening SimFr.ristretto) (ho : o.Opens X r) (beta : Fin 2 → ZMod SimFr.ristretto.r)
    (lambda : Fin 2 → Fin 2 → ZMod SimFr.ristretto.r)
    (hbeta : ∀ b l, H b l (DelegatedSchnorr.point1 X.gens [.label abarToBarLabel, .bound nul]
      [(o.coms X.gens).1, (o.coms X.gens).2] comm randomizers) = beta b) (hne : beta 0 ≠ beta 1)
    (hlambda : ∀ b l, H b l (DelegatedSchnorr.point2 (DelegatedSchnorr.point1 X.gens [.label abarToBarLabel, .bound nul]
      [(o.coms X.gens).1, (o.coms X.gens).2] comm randomizers) (responses b)) = lambda b l)
    (hlne : ∀ b, lambda b 0 ≠ lambda b 1)
    (c : Merkle.Codec Fr) (ops : List (Merkle.Op Fr)) (hcap : Merkle.adds ops ≤ 3 ^ 20) (stored : List Fr)
    (hst : (Merkle.Spec.run ops).cur = leavesOf Rescue.blsParams stored) (t : Merkle.Tree)
    (ht : Merkle.runTree c (treeHash Rescue.blsParams) ops = some t) (hroot : t.getRoot c = some root) :
    let A := fun b l => readOff (blsRoot 8192) cs (w b l)
    ((∃ (j : Nat) (ch : ZMod SimFr.secq256k1.r × ZMod SimFr.secq256k1.r),
        stored[j]? = some (commit Rescue.blsParams (pkVal (A 0 0) vars.spend.pk)
          (spentVal (A 0 0) vars.spend.payer).blind (o.amount : Fr) (o.ty : Fr)) ∧
        nul = nullify Rescue.blsParams (pkVal (A 0 0) vars.spend.pk) (skVal (A 0 0) vars.spend.sk) (j : Fr) (o.amount : Fr) (o.ty : Fr) ∧
        Y.verify abarToBarFoldLabel (hs 0 0) (folding 0 0) = .ok ch ∧
        Folds Rescue.blsParams SimFr.secq256k1 (ofLE secpOrderBytes) (folding 0 0).schnorr.comm ch.1 ch.2
          ((folding 0 0).schnorr.responses.map (·.1)) (pkVal (A 0 0) vars.spend.pk) (skVal (A 0 0) vars.spend.sk)
          (foldVal SimFr.secq256k1 (A 0 0) vars.fold)) ∨
      (∃ b l, SpendBreak Rescue.blsParams stored (pkVal (A b l) vars.spend.pk) (spentVal (A b l) vars.spend.payer)) ∨
      (∃ b l, Collide Rescue.blsParams ((inspVal SimFr.ristretto (A 0 0) vars.insp).calls Rescue.blsParams SimFr.ristretto)
        ((inspVal SimFr.ristretto (A b l) vars.insp).calls Rescue.blsParams SimFr.ristretto)) ∨
      Relation X.gens ((inspVal SimFr.ristretto (A 0 0) vars.insp).x : ZMod SimFr.ristretto.r) (o.amount : ZMod SimFr.ristretto.r)
        (o.blinds.1 + 2 ^ 32 * o.blinds.2) (responses 0)[0]? (responses 1)[0]? (beta 0) (beta 1) ∨
      Relation X.gens ((inspVal SimFr.ristretto (A 0 0) vars.insp).y : ZMod SimFr.ristretto.r) (o.ty : ZMod SimFr.ristretto.r) o.tyBlind
        (responses 0)[1]? (responses 1)[1]? (beta 0) (beta 1)) ∨
    ∃ b l, FewAccepted 8192 N (w b l) (fun pl s => ∃ d tr,
      (lateExt P { X with oracle := H b l } cs d tr pl s).verifyAbarToBar Y ()
        ⟨nul, r, ⟨comm, randomizers, responses b⟩, root, pl.proof P.base1 s, folding b l⟩ root (hs b l) = .ok ()) := by
  intro A
  obtain ⟨hz, -, hpub⟩ := C93_abar_to_bar _ bls_rounds dbg wit sp hd pk0 sk0 insp vars cs hb
  have hwf := wf_abarToBar hb
  have hp := goodBls
  generalize Rescue.blsParams = p at hp hb hst ht ⊢
  have key : ∀ b l, _ := fun b l => abar_to_bar_caught P hP { X with oracle := H b l } Y hwf hz (by rw [hpub]; simp) N hN (w b l)
    (hw b l) nul root r ⟨comm, randomizers, responses b⟩ (folding b l) (hs b l) (fun q : Fin 2 × Fin 2 => A q.1 q.2) (b, l) rfl
  by_cases hall : ∀ b l, (idealExt { X with oracle := H b l } cs (fun q : Fin 2 × Fin 2 => A q.1 q.2)).verifyAbarToBar Y ()
      ⟨nul, r, ⟨comm, randomizers, responses b⟩, root, (b, l), folding b l⟩ root (hs b l) = .ok ()
  · left
    exact C77_abar_to_bar_conserves_partial p hp dbg secq_fold ristretto_insp ristretto_ge secpOrderBytes secpOrder_ok.1 secpOrder_ok.2.1
      (idealExt X cs (fun q : Fin 2 × Fin 2 => A q.1 q.2)) Y () wit insp sp hd pk0 sk0 vars cs hb (fun q => A q.1 q.2)
      (idealExt_knows X cs _ _) r nul root comm randomizers responses
      (fun b l => ⟨nul, r, ⟨comm, randomizers, responses b⟩, root, (b, l), folding b l⟩) hs (fun b l => ⟨rfl, rfl, rfl⟩) H hall o ho beta
      lambda hbeta hne hlambda hlne c ops hcap stored hst t ht hroot
  · push Not at hall
    obtain ⟨b, l, hbl⟩ := hall
    exact .inr ⟨b, l, (key b l).resolve_left hbl⟩

end

end

end

end Verif.Setup
