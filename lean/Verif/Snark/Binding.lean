import Verif.Crypto.Binding
import Verif.Snark.Complete

/-!
C82, for the PLONK verifier and the batched openings of the polynomial commitment: what the challenges depend on.
-/

namespace Verif.Snark

open Verif.Binding Verif.Poly
open Verif.AnonCreds (Pairing)

variable {F G1 G2 Gt : Type} [Field F] [DecidableEq F] [AddCommGroup G1] [Module F G1] [AddCommGroup G2] [Module F G2]
  [AddCommGroup Gt] [Module F Gt] [DecidableEq Gt]

/-! ### The transcripts at which the challenges are drawn -/

/-- after the circuit's commitments, the public input and the wire commitments -/
def betaPoint (tr : Tr F G1) (vk : VK G1 F) (pi : List F) (proof : Proof G1 F) : Tr F G1 :=
  initPlonk tr vk pi ++ proof.cmW.map .commitment ++ [.challenge "beta"]

def gammaPoint (tr : Tr F G1) (vk : VK G1 F) (pi : List F) (proof : Proof G1 F) : Tr F G1 :=
  betaPoint tr vk pi proof ++ [.challenge "gamma"]

/-- after the commitment to the permutation polynomial -/
def alphaPoint (tr : Tr F G1) (vk : VK G1 F) (pi : List F) (proof : Proof G1 F) : Tr F G1 :=
  gammaPoint tr vk pi proof ++ [.commitment proof.cmZ, .challenge "alpha"]

/-- after the commitments to the quotient -/
def zetaPoint (tr : Tr F G1) (vk : VK G1 F) (pi : List F) (proof : Proof G1 F) : Tr F G1 :=
  alphaPoint tr vk pi proof ++ proof.cmT.map .commitment ++ [.challenge "zeta"]

/-- after the evaluations -/
def uPoint (tr : Tr F G1) (vk : VK G1 F) (pi : List F) (proof : Proof G1 F) : Tr F G1 :=
  zetaPoint tr vk pi proof ++ (proof.wEv ++ proof.sEv).map .field ++ [.field proof.zEv, .challenge "u"]

/-- the coefficient of the batched opening at `zeta` -/
def openingPoint (tr : Tr F G1) (vk : VK G1 F) (pi : List F) (proof : Proof G1 F) (zeta : F) : Tr F G1 :=
  initBatchEval (uPoint tr vk pi proof) (vk.csSize + 2) zeta ++ [.challenge "alpha"]

omit [AddCommGroup G1] [Module F G1] in
/-- C82: the verifier's challenges are drawn at these transcripts: the first element drawn there that is no root of unity. -/
theorem C82_plonk_points {n : Nat} (O : Oracle F G1 n) (tr : Tr F G1) (vk : VK G1 F) (pi : List F) (proof : Proof G1 F) :
    let first := fun t : Tr F G1 => O.draw t (Nat.find (O.live t))
    computeChallenges O (initPlonk tr vk pi) proof =
      (⟨first (betaPoint tr vk pi proof), first (gammaPoint tr vk pi proof), first (alphaPoint tr vk pi proof),
        first (zetaPoint tr vk pi proof), first (uPoint tr vk pi proof)⟩, uPoint tr vk pi proof) := by
  simp only [computeChallenges, challenge, appendCommitment, betaPoint, gammaPoint, alphaPoint, zetaPoint, uPoint,
    List.append_assoc, List.cons_append, List.nil_append]

/-- the parts of a verifier key that are absorbed -/
def SameKey (vk vk' : VK G1 F) : Prop :=
  vk.csSize = vk'.csSize ∧ vk.cmQ = vk'.cmQ ∧ vk.cmS = vk'.cmS ∧ vk.root = vk'.root ∧ vk.k = vk'.k

omit [DecidableEq F] [AddCommGroup G1] [Module F G1] [Field F] in
theorem map_commitment_inj {l l' : List G1} (h : l.map (Msg.commitment (F := F)) = l'.map .commitment) : l = l' :=
  List.map_injective_iff.mpr (by intro a b; simp) h

omit [DecidableEq F] [AddCommGroup G1] [Module F G1] [Field F] in
theorem map_field_inj {l l' : List F} (h : l.map (Msg.field (C := G1)) = l'.map .field) : l = l' :=
  List.map_injective_iff.mpr (by intro a b; simp) h

omit [DecidableEq F] [AddCommGroup G1] [Module F G1] [Field F] in
theorem initPlonk_inj (tr tr' : Tr F G1) (vk vk' : VK G1 F) (pi pi' : List F) (cm cm' : List G1) (hq : vk.cmQ.length = vk'.cmQ.length)
    (hk : vk.k.length = vk'.k.length)
    (h : initPlonk tr vk pi ++ cm.map .commitment = initPlonk tr' vk' pi' ++ cm'.map .commitment) :
    tr = tr' ∧ SameKey vk vk' ∧ pi = pi' ∧ cm = cm' := by
  have e : ∀ (t : Tr F G1) (vk : VK G1 F) (pi : List F) (cm : List G1), initPlonk t vk pi ++ cm.map .commitment =
      (t ++ [.message "New Domain" "PLONK", .u64 "CS size" vk.csSize]) ++ .message "field size" "" ::
        ((vk.cmQ ++ vk.cmS).map .commitment ++ .field vk.root :: ((vk.k ++ pi).map .field ++ cm.map .commitment)) := by
    intro t vk pi cm; simp [initPlonk]
  rw [e, e] at h
  obtain ⟨h1, -, h2⟩ := cut (fun m : Msg F G1 => ∀ a b, m ≠ .message a b) (by simp; grind) (by simp; grind) (by simp) (by simp) h
  have h3 := List.append_inj' h1 rfl
  have key : ∀ (a a' : List G1) (x x' : F) (b b' : List (Msg F G1)),
      a.map Msg.commitment ++ .field x :: b = a'.map .commitment ++ .field x' :: b' → a = a' ∧ x = x' ∧ b = b' := by
    intro a
    induction a with
    | nil =>
      intro a' x x' b b' h
      cases a' with
      | nil => simpa using h
      | cons y a' => simp at h
    | cons z a ih =>
      intro a' x x' b b' h
      cases a' with
      | nil => simp at h
      | cons y a' =>
        simp only [List.map_cons, List.cons_append, List.cons.injEq, Msg.commitment.injEq] at h
        obtain ⟨i1, i2, i3⟩ := ih a' x x' b b' h.2
        exact ⟨by rw [h.1, i1], i2, i3⟩
  obtain ⟨h4, h5, h6⟩ := key _ _ _ _ _ _ h2
  obtain ⟨h7, h8⟩ := two_kinds (by intro a b; simp) (by intro a b; simp) (by simp) h6
  have h9 := List.append_inj h4 hq
  have h10 := List.append_inj h7 hk
  have h11 : vk.csSize = vk'.csSize := by simpa using h3.2
  exact ⟨h3.1, ⟨h11, h9.1, h9.2, h5, h10.1⟩, h10.2, h8⟩

omit [DecidableEq F] [AddCommGroup G1] [Module F G1] [Field F] in
/-- C82: the challenges of the PLONK verifier bind the absorbed part of the verifier key, the public input and the messages the
prover sent before them.  The numbers of selectors and of coset factors are those of the constraint system, the same for all
proofs.  Missing for the full property: the two opening witnesses are not bound by `u` (see C70_forged_long, C70_forged_shaped), and
`cm_qb` is not absorbed, see `C82_plonk_not_bound`. -/
theorem C82_plonk_binds_partial (tr tr' : Tr F G1) (vk vk' : VK G1 F) (pi pi' : List F) (p p' : Proof G1 F)
    (hq : vk.cmQ.length = vk'.cmQ.length) (hk : vk.k.length = vk'.k.length) :
    (betaPoint tr vk pi p = betaPoint tr' vk' pi' p' → tr = tr' ∧ SameKey vk vk' ∧ pi = pi' ∧ p.cmW = p'.cmW) ∧
    (gammaPoint tr vk pi p = gammaPoint tr' vk' pi' p' → betaPoint tr vk pi p = betaPoint tr' vk' pi' p') ∧
    (alphaPoint tr vk pi p = alphaPoint tr' vk' pi' p' → gammaPoint tr vk pi p = gammaPoint tr' vk' pi' p' ∧ p.cmZ = p'.cmZ) ∧
    (zetaPoint tr vk pi p = zetaPoint tr' vk' pi' p' → alphaPoint tr vk pi p = alphaPoint tr' vk' pi' p' ∧ p.cmT = p'.cmT) ∧
    (uPoint tr vk pi p = uPoint tr' vk' pi' p' →
      zetaPoint tr vk pi p = zetaPoint tr' vk' pi' p' ∧ p.wEv ++ p.sEv = p'.wEv ++ p'.sEv ∧ p.zEv = p'.zEv) ∧
    (∀ zeta zeta', openingPoint tr vk pi p zeta = openingPoint tr' vk' pi' p' zeta' →
      uPoint tr vk pi p = uPoint tr' vk' pi' p' ∧ zeta = zeta') := by
  refine ⟨fun h => ?_, fun h => ?_, fun h => ?_, fun h => ?_, fun h => ?_, fun zeta zeta' h => ?_⟩
  · exact initPlonk_inj _ _ _ _ _ _ _ _ hq hk (List.append_inj' h rfl).1
  · exact (List.append_inj' h rfl).1
  · have := List.append_inj' h rfl
    exact ⟨this.1, by simpa using this.2⟩
  · have h1 := (List.append_inj' h rfl).1
    unfold alphaPoint at h1 ⊢
    have e : ∀ (t : Tr F G1) (x : G1) (l : Tr F G1), t ++ [.commitment x, .challenge "alpha"] ++ l =
      (t ++ [.commitment x]) ++ .challenge "alpha" :: l := by simp
    rw [e, e] at h1
    obtain ⟨h2, -, h3⟩ := cut (fun m : Msg F G1 => ∀ s, m ≠ .challenge s) (by simp) (by simp) (by simp) (by simp) h1
    have h4 := List.append_inj' h2 rfl
    refine ⟨by rw [h4.1]; simpa using h4.2, map_commitment_inj h3⟩
  · unfold uPoint at h
    have h0 := List.append_inj' h rfl
    have h1 := h0.1
    unfold zetaPoint at h1 ⊢
    rw [List.append_assoc _ [Msg.challenge "zeta"], List.append_assoc _ [Msg.challenge "zeta"], List.singleton_append,
      List.singleton_append] at h1
    obtain ⟨h2, -, h3⟩ := cut (fun m : Msg F G1 => ∀ s, m ≠ .challenge s) (by simp; grind) (by simp; grind) (by simp) (by simp) h1
    exact ⟨by rw [h2], map_field_inj h3, by simpa using h0.2⟩
  · unfold openingPoint initBatchEval at h
    have h0 := List.append_inj' (List.append_inj' h rfl).1 rfl
    have h1 := h0.2
    simp only [List.cons.injEq, Msg.field.injEq, and_true, true_and] at h1
    exact ⟨h0.1, h1.2⟩

omit [DecidableEq F] [AddCommGroup G1] [Module F G1] [Field F] in
/-- C82 does not hold as it stands: no challenge depends on the commitment to the boolean selector, on the positions of the public
inputs or on the opening witnesses. -/
theorem C82_plonk_not_bound (tr : Tr F G1) (vk : VK G1 F) (pi : List F) (p : Proof G1 F) (qb w w' : G1) (pubs : List Nat)
    (lag : List F) (zeta : F) :
    openingPoint tr { vk with cmQb := qb, pubCons := pubs, lagrange := lag } pi { p with wit := w, witOmega := w' } zeta =
      openingPoint tr vk pi p zeta := rfl

/-- C82 does not hold of `batch_verify`: the coefficient is drawn after the point and the bound only, so wrong values can be chosen
with the coefficient known.  The honest proof for any two or more polynomials is accepted with the first value increased by the
coefficient and the second one decreased by one.  (The PLONK verifier absorbs commitments and values before.) -/
theorem C82_batch_values_not_bound (P : Pairing F G1 G2 Gt) (msm : List F → List G1 → Res G1) (hm : MsmCorrect msm)
    (H : Tr F G1 → Nat → F) (tr : Tr F G1) (d bound : Nat) (s x : F) (p q : List F) (ps : List (List F))
    (hp : ∀ r ∈ p :: q :: ps, r ≠ [] ∧ r.length ≤ d + 1) :
    let alpha := H (initBatchEval tr bound x ++ [.challenge "alpha"]) 0
    ∃ cms proof tr', commitAll msm (setup P d s) (p :: q :: ps) = cms.map Res.ok ∧
      batchProve H msm (setup P d s) tr (p :: q :: ps) x bound = .ok (proof, tr') ∧
      batchVerify H P (setup P d s) tr cms bound x
        (((toPoly p).eval x + alpha) :: ((toPoly q).eval x - 1) :: ps.map fun r => (toPoly r).eval x) proof = .ok () := by
  intro alpha
  obtain ⟨cms, proof, tr', h1, h2, h3⟩ := C59_batch_complete P msm hm H tr d bound s x (p :: q :: ps) (by simp) hp
  refine ⟨cms, proof, tr', h1, h2, ?_⟩
  have hl : cms.length = ps.length + 2 := by simpa [commitAll] using (congrArg List.length h1).symm
  match cms, hl with
  | a :: b :: cms, _ =>
    unfold batchVerify batch challengeField at h3 ⊢
    simp only [List.map_cons, batchLoop] at h3 ⊢
    have e : (0 : F) + ((toPoly p).eval x + alpha) * 1 + ((toPoly q).eval x - 1) * (1 * alpha) =
      0 + (toPoly p).eval x * 1 + (toPoly q).eval x * (1 * alpha) := by ring
    change Poly.verify P _ (batchLoop alpha _ _ _ (_, 0 + ((toPoly p).eval x + alpha) * 1 + ((toPoly q).eval x - 1) * (1 * alpha))).1 _
      (batchLoop alpha _ _ _ (_, 0 + ((toPoly p).eval x + alpha) * 1 + ((toPoly q).eval x - 1) * (1 * alpha))).2 _ = _
    rw [e]
    exact h3

/-- the honest proof for `1 + 2X + 3X²` and `4 + 5X` at 5, accepted for wrong values -/
example : ∃ cms proof tr', commitAll plainMsm (setup AnonCreds.exPairing 4 9) [[1, 2, 3], [4, 5]] = cms.map Res.ok ∧
    batchProve exStream plainMsm (setup AnonCreds.exPairing 4 9) [] [[1, 2, 3], [4, 5]] 5 3 = .ok (proof, tr') ∧
    batchVerify exStream AnonCreds.exPairing (setup AnonCreds.exPairing 4 9) [] cms 3 5
      [(toPoly ([1, 2, 3] : List (ZMod 101))).eval 5 + 5, (toPoly ([4, 5] : List (ZMod 101))).eval 5 - 1] proof = .ok () :=
  C82_batch_values_not_bound AnonCreds.exPairing plainMsm plainMsm_correct exStream [] 4 3 9 5 [1, 2, 3] [4, 5] [] (by simp)

end Verif.Snark
