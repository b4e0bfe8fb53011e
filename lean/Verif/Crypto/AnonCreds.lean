import Mathlib.Algebra.Module.Basic
import Mathlib.Algebra.BigOperators.Group.List.Basic
import Mathlib.Algebra.Field.ZMod
import Mathlib.Tactic.Abel
import Mathlib.Tactic.Module
import Mathlib.Tactic.LinearCombination
import Mathlib.Tactic.FieldSimp
import Mathlib.Tactic.NormNum.Prime
import Verif.Bytes
import Verif.Res
import Verif.Algebra.Pippenger
import Verif.Crypto.Sigma

/-!
C39, C40: anonymous credentials (`crypto/src/anon_creds.rs`, `api/src/anon_creds.rs`).

The pairing is a parameter with its bilinearity as hypotheses.  The merlin transcript is the list of the messages appended,
the challenge a function `H` of that list; group elements are appended by their injective compressed encodings, the model
appends the elements.  The samples of the random number generator are arguments.
-/

namespace Verif.AnonCreds

open Verif.Pippenger (sumOfProducts)
open Verif.Sigma (multiExpDefault dot_nil dot_nil_right dot_cons)

/-- a transcript message; `label` also stands for byte strings fixed in the program -/
inductive Msg (G1 G2 : Type) where
  | label (s : String)
  | bytes (s : String) (b : Bytes)
  | elem1 (s : String) (g : G1)
  | elem2 (s : String) (g : G2)
  | challenge
deriving DecidableEq

abbrev Tr (G1 G2 : Type) := List (Msg G1 G2)

variable {F G1 G2 Gt : Type} [Field F] [AddCommGroup G1] [Module F G1] [AddCommGroup G2] [Module F G2] [AddCommGroup Gt]
  [Module F Gt]

/-- models the trait `Pairing` and the bases of the two groups, algebra/src/traits.rs:183-198; bilinearity is assumed of the
external pairing -/
structure Pairing (F G1 G2 Gt : Type) [Field F] [AddCommGroup G1] [Module F G1] [AddCommGroup G2] [Module F G2]
    [AddCommGroup Gt] [Module F Gt] where
  base1 : G1
  base2 : G2
  e : G1 → G2 → Gt
  add_left : ∀ a b h, e (a + b) h = e a h + e b h
  add_right : ∀ g a b, e g (a + b) = e g a + e g b
  smul_left : ∀ (s : F) g h, e (s • g) h = s • e g h
  smul_right : ∀ (s : F) g h, e g (s • h) = s • e g h

/-! ### Model -/

/-- models `CredentialIssuerPK`, crypto/src/anon_creds.rs:16-27 -/
structure IssuerPK (G1 G2 : Type) where
  gen2 : G2
  xx2 : G2
  zz1 : G1
  zz2 : G2
  yy2 : List G2

/-- models `CredentialIssuerSK`, crypto/src/anon_creds.rs:38-45 -/
structure IssuerSK (F G1 : Type) where
  gen1 : G1
  x : F
  y : List F

/-- models `CredentialSig` and `CredentialComm`, crypto/src/anon_creds.rs:49-54 and 95 (one structure for both) -/
structure Sig (G1 : Type) where
  sigma1 : G1
  sigma2 : G1
deriving DecidableEq, Repr

/-- models the `Default` of `CredentialSig` and `CredentialComm`, crypto/src/anon_creds.rs:56-63, 97-101 -/
def Sig.default : Sig G1 := ⟨0, 0⟩

/-- models `Credential`, crypto/src/anon_creds.rs:67-74 -/
structure Credential (F G1 G2 : Type) where
  sig : Sig G1
  attrs : List F
  ipk : IssuerPK G1 G2

/-- models `get_revealed_attributes`, crypto/src/anon_creds.rs:78-89 -/
def getRevealed {A : Type} (attrs : List A) (revealMap : List Bool) : Res (List A) :=
  if revealMap.length ≠ attrs.length then .err
  else .ok (((attrs.zip revealMap).filter (fun p => p.2)).map (·.1))

/-- models `CredentialCommRandomizer`, crypto/src/anon_creds.rs:159-164 -/
structure Randomizer (F : Type) where
  r : F
  t : F

/-- models `CredentialComm::new`, crypto/src/anon_creds.rs:105-114 -/
def comm (sig : Sig G1) (rand : Randomizer F) : Sig G1 :=
  ⟨rand.r • sig.sigma1, rand.r • (sig.sigma2 + rand.t • sig.sigma1)⟩

/-- models `CredentialPoK`, crypto/src/anon_creds.rs:140-145 -/
structure PoK (F G2 : Type) where
  blinding : G2
  responseT : F
  responseSk : F
  responseAttrs : List F
deriving DecidableEq, Repr

/-- models `Attribute`, crypto/src/anon_creds.rs:149-155 -/
inductive Attr (F : Type) where
  | revealed (a : F)
  | hidden (a : Option F)
deriving DecidableEq

/-- models `issuer_keygen`, crypto/src/anon_creds.rs:176-207; the arguments are the samples -/
def issuerKeygen (x z : F) (gen1 : G1) (gen2 : G2) (y : List F) : IssuerSK F G1 × IssuerPK G1 G2 :=
  (⟨gen1, x, y⟩, ⟨gen2, x • gen2, z • gen1, z • gen2, y.map (· • gen2)⟩)

/-- models `user_keygen`, crypto/src/anon_creds.rs:212-219 -/
def userKeygen (ipk : IssuerPK G1 G2) (sk : F) : F × G1 := (sk, sk • ipk.zz1)

/-- models `grant_credential`, crypto/src/anon_creds.rs:224-246; `u` is the sample -/
def grant (isk : IssuerSK F G1) (upk : G1) (attrs : List F) (u : F) : Res (Sig G1) :=
  if isk.y.length ≠ attrs.length then .err
  else
    let exponent := (attrs.zip isk.y).foldl (fun acc p => acc + p.1 * p.2) isk.x
    .ok ⟨u • isk.gen1, u • (upk + exponent • isk.gen1)⟩

/-- models `init_pok_transcript` with `init_sigma_pairing`, crypto/src/anon_creds.rs:405-418 and
crypto/src/confidential_anon_creds.rs:45-62 -/
def initPok (P : Pairing F G1 G2 Gt) (tr : Tr G1 G2) (ipk : IssuerPK G1 G2) (cm : Sig G1) : Tr G1 G2 :=
  tr ++ [.label "Sigma protocol with pairings elements", .label "AC Reveal PoK"] ++
    [P.base1, ipk.zz1, cm.sigma1, cm.sigma2].map (.elem1 "public elem g1") ++
    ([P.base2, ipk.gen2, ipk.xx2, ipk.zz2] ++ ipk.yy2).map (.elem2 "public elem g2")

/-- models the first loop of `prove_pok`, crypto/src/anon_creds.rs:433-446: the blinding factor and the samples, one for
each hidden attribute (`gamma k` the `k`-th) -/
def blindLoop (gamma : Nat → F) : Nat → List G2 → List (Attr F) → G2 → Res (G2 × List F)
  | k, y :: ys, .hidden (some _) :: as, b => do
      let (b, g) ← blindLoop gamma (k + 1) ys as (b + gamma k • y)
      pure (b, gamma k :: g)
  | _, _ :: _, .hidden none :: _, _ => .err
  | k, _ :: ys, .revealed _ :: as, b => blindLoop gamma k ys as b
  | _, [], _, b => .ok (b, [])
  | _, _ :: _, [], b => .ok (b, [])

/-- models the second loop of `prove_pok`, crypto/src/anon_creds.rs:451-459: running out of samples panics -/
def responses (c : F) : List (Attr F) → List F → Res (List F)
  | [], _ => .ok []
  | .hidden (some a) :: as, g :: gs => do
      let rs ← responses c as gs
      pure ((c * a + g) :: rs)
  | .hidden (some _) :: _, [] => .panic
  | .hidden none :: as, gs => responses c as gs
  | .revealed _ :: as, gs => responses c as gs

/-- the samples of `prove_pok` -/
structure Blinds (F : Type) where
  beta1 : F
  beta2 : F
  gamma : Nat → F

/-- models `prove_pok`, crypto/src/anon_creds.rs:421-466 -/
def provePok (H : Tr G1 G2 → F) (tr : Tr G1 G2) (bl : Blinds F) (usk : F) (ipk : IssuerPK G1 G2) (t : F)
    (attrs : List (Attr F)) : Res (PoK F G2) := do
  let (blinding, gamma) ← blindLoop bl.gamma 0 ipk.yy2 attrs (bl.beta1 • ipk.gen2 + bl.beta2 • ipk.zz2)
  let c := H (tr ++ [.elem2 "proof_commitment" blinding])
  let rs ← responses c attrs gamma
  pure ⟨blinding, c * t + bl.beta1, c * usk + bl.beta2, rs⟩

/-- models the collection of the attribute scalars in `verify_pok`, crypto/src/anon_creds.rs:485-504 -/
def attrScalars (c : F) : List (Attr F) → List F → Res (List F)
  | [], _ => .ok []
  | .revealed a :: as, rs => do
      let s ← attrScalars c as rs
      pure (a * c :: s)
  | .hidden _ :: as, r :: rs => do
      let s ← attrScalars c as rs
      pure (r :: s)
  | .hidden _ :: _, [] => .err

/-- models `verify_pok`, crypto/src/anon_creds.rs:469-520; `me` is the `multi_exp` of the second group -/
def verifyPok [DecidableEq Gt] (P : Pairing F G1 G2 Gt) (me : List F → List G2 → Res G2) (ipk : IssuerPK G1 G2)
    (cm : Sig G1) (proof : PoK F G2) (attrs : List (Attr F)) (c : F) : Res Unit := do
  let s ← attrScalars c attrs proof.responseAttrs
  let p ← me ([proof.responseT, c, proof.responseSk, -1] ++ s) ([ipk.gen2, ipk.xx2, ipk.zz2, proof.blinding] ++ ipk.yy2)
  if P.e cm.sigma1 p = P.e (c • cm.sigma2) ipk.gen2 then .ok () else .err

/-- models the prover's attribute list, crypto/src/anon_creds.rs:358-369 -/
def proverAttrs (attrs : List F) (revealMap : List Bool) : List (Attr F) :=
  List.zipWith (fun a b => if b then .revealed a else .hidden (some a)) attrs revealMap

/-- models `open_comm`, crypto/src/anon_creds.rs:346-384 -/
def openComm (P : Pairing F G1 G2 Gt) (H : Tr G1 G2 → F) (bl : Blinds F) (usk : F) (cred : Credential F G1 G2)
    (cm : Sig G1) (rand : Randomizer F) (revealMap : List Bool) : Res (PoK F G2) :=
  if cred.attrs.length ≠ revealMap.length then .err
  else provePok H (initPok P [.label "AC Reveal PoK Instance"] cred.ipk cm) bl usk cred.ipk rand.t
    (proverAttrs cred.attrs revealMap)

/-- models `open_credential`, crypto/src/anon_creds.rs:250-262 -/
def openCredential (P : Pairing F G1 G2 Gt) (H : Tr G1 G2 → F) (rand : Randomizer F) (bl : Blinds F) (usk : F)
    (cred : Credential F G1 G2) (revealMap : List Bool) : Res (Sig G1 × PoK F G2) := do
  let cm := comm cred.sig rand
  let proof ← openComm P H bl usk cred cm rand revealMap
  pure (cm, proof)

/-- the transcript at the challenge of `verify_open` -/
def openPoint (P : Pairing F G1 G2 Gt) (ipk : IssuerPK G1 G2) (cm : Sig G1) (blinding : G2) : Tr G1 G2 :=
  initPok P [.label "AC Reveal PoK Instance"] ipk cm ++ [.elem2 "proof_commitment" blinding]

/-- models `verify_open`, crypto/src/anon_creds.rs:390-403 -/
def verifyOpen [DecidableEq Gt] (P : Pairing F G1 G2 Gt) (me : List F → List G2 → Res G2) (H : Tr G1 G2 → F)
    (ipk : IssuerPK G1 G2) (cm : Sig G1) (proof : PoK F G2) (attrs : List (Attr F)) : Res Unit :=
  verifyPok P me ipk cm proof attrs (H (openPoint P ipk cm proof.blinding))

/-- models `commit`, crypto/src/anon_creds.rs:293-321 -/
def commit (P : Pairing F G1 G2 Gt) (H : Tr G1 G2 → F) (bl : Blinds F) (usk : F) (cred : Credential F G1 G2)
    (rand : Randomizer F) (m : Bytes) : Res (Sig G1 × PoK F G2) := do
  let cm := comm cred.sig rand
  let proof ← provePok H (initPok P [.label "AC Commit SoK Instance"] cred.ipk cm ++ [.bytes "Signature Message" m]) bl usk
    cred.ipk rand.t (cred.attrs.map (fun a => .hidden (some a)))
  pure (cm, proof)

/-- the transcript at the challenge of `check_comm` -/
def commitPoint (P : Pairing F G1 G2 Gt) (ipk : IssuerPK G1 G2) (cm : Sig G1) (m : Bytes) (blinding : G2) : Tr G1 G2 :=
  initPok P [.label "AC Commit SoK Instance"] ipk cm ++ [.bytes "Signature Message" m] ++
    [.elem2 "proof_commitment" blinding]

/-- models `check_comm`, crypto/src/anon_creds.rs:324-340 -/
def checkComm [DecidableEq Gt] (P : Pairing F G1 G2 Gt) (me : List F → List G2 → Res G2) (H : Tr G1 G2 → F)
    (ipk : IssuerPK G1 G2) (cm : Sig G1) (proof : PoK F G2) (m : Bytes) : Res Unit :=
  verifyPok P me ipk cm proof (List.replicate ipk.yy2.length (.hidden none)) (H (commitPoint P ipk cm m proof.blinding))

/-- models `ac_reveal`, api/src/anon_creds.rs:266-283; attributes are 32-bit numbers -/
def acReveal (P : Pairing F G1 G2 Gt) (H : Tr G1 G2 → F) (rand : Randomizer F) (bl : Blinds F) (usk : F)
    (sig : Sig G1) (attrs : List UInt32) (ipk : IssuerPK G1 G2) (revealMap : List Bool) : Res (Sig G1 × PoK F G2) :=
  openCredential P H rand bl usk ⟨sig, attrs.map (fun a => (a.toNat : F)), ipk⟩ revealMap

/-- models `ac_verify`, api/src/anon_creds.rs:317-339 -/
def acVerify [DecidableEq Gt] (P : Pairing F G1 G2 Gt) (me : List F → List G2 → Res G2) (H : Tr G1 G2 → F)
    (ipk : IssuerPK G1 G2) (attrs : List (Option UInt32)) (cm : Sig G1) (proof : PoK F G2) : Res Unit :=
  verifyOpen P me H ipk cm proof
    (attrs.map (fun a => match a with | some x => .revealed (x.toNat : F) | none => .hidden none))

/-! ### Specification -/

/-- What the verifier of a presentation is shown: the revealed attributes, nothing for the others. -/
def shown (attrs : List F) (revealMap : List Bool) : List (Attr F) :=
  List.zipWith (fun a b => if b then .revealed a else .hidden none) attrs revealMap

/-- A (Pointcheval–Sanders) signature under the public key on the secret key `sk` and the attributes: the first element is
not the identity and `e(σ₁, X + sk·Z + Σ aᵢ·Yᵢ) = e(σ₂, g)`. -/
def ValidSig (P : Pairing F G1 G2 Gt) (ipk : IssuerPK G1 G2) (sig : Sig G1) (sk : F) (attrs : List F) : Prop :=
  attrs.length = ipk.yy2.length ∧ sig.sigma1 ≠ 0 ∧
    P.e sig.sigma1 (ipk.xx2 + sk • ipk.zz2 + sumOfProducts attrs ipk.yy2) = P.e sig.sigma2 ipk.gen2

/-- the attribute list shows the values `xs` at the revealed positions -/
def Shows (attrs : List (Attr F)) (xs : List F) : Prop :=
  List.Forall₂ (fun a x => ∀ v, a = .revealed v → x = v) attrs xs

/-- the number of hidden attributes -/
def hiddenCount (attrs : List (Attr F)) : Nat := (attrs.filter (fun a => match a with | .hidden _ => true | _ => false)).length

/-- The extractor for the attributes: the shown value, or the quotient of the differences of the responses. -/
def extractAttrs (c c' : F) : List (Attr F) → List F → List F → List F
  | .revealed a :: as, rs, rs' => a :: extractAttrs c c' as rs rs'
  | .hidden _ :: as, r :: rs, r' :: rs' => (r - r') / (c - c') :: extractAttrs c c' as rs rs'
  | _, _, _ => []

/-- The extracted signature: the commitment with the randomizer `t = (z_t - z_t') / (c - c')` taken off. -/
def extractSig (cm : Sig G1) (proof proof' : PoK F G2) (c c' : F) : Sig G1 :=
  ⟨cm.sigma1, cm.sigma2 - ((proof.responseT - proof'.responseT) / (c - c')) • cm.sigma1⟩

/-! ### Lemmas -/

omit [AddCommGroup G2] [Module F G2] in
theorem me_default [AddCommGroup G2] [Module F G2] (s : List F) (p : List G2) (h : s.length < 800) :
    multiExpDefault s p = .ok (sumOfProducts s p) := by simp [multiExpDefault, h]

theorem four_dot (a b c d : F) (s : List F) (g x z k : G2) (ys : List G2) :
    sumOfProducts ([a, b, c, d] ++ s) ([g, x, z, k] ++ ys) =
      a • g + b • x + c • z + d • k + sumOfProducts s ys := by
  simp only [List.cons_append, List.nil_append, dot_cons]; abel

/-- the honest prover's values, whatever the challenge turns out to be -/
theorem honest_core (gamma : Nat → F) (k : Nat) (ys : List G2) (vals : List F) (rev : List Bool) (b : G2)
    (h1 : vals.length = ys.length) (h2 : rev.length = ys.length) :
    ∃ B gs, blindLoop gamma k ys (proverAttrs vals rev) b = .ok (B, gs) ∧
      ∀ c, ∃ rs s, responses c (proverAttrs vals rev) gs = .ok rs ∧ attrScalars c (shown vals rev) rs = .ok s ∧
        s.length = ys.length ∧ sumOfProducts s ys = c • sumOfProducts vals ys + (B - b) := by
  induction ys generalizing k vals rev b with
  | nil =>
    obtain rfl := List.length_eq_zero_iff.mp h1
    exact ⟨b, [], by simp [proverAttrs, blindLoop], fun c => ⟨[], [], by simp [proverAttrs, responses],
      by simp [shown, attrScalars], rfl, by simp [dot_nil]⟩⟩
  | cons y ys ih =>
    cases vals with
    | nil => simp at h1
    | cons v vals =>
      cases rev with
      | nil => simp at h2
      | cons r rev =>
        cases r with
        | true =>
          obtain ⟨B, gs, hb, hc⟩ := ih k vals rev b (by simpa using h1) (by simpa using h2)
          refine ⟨B, gs, by simpa [proverAttrs, blindLoop] using hb, fun c => ?_⟩
          obtain ⟨rs, s, hr, hs, hl, hd⟩ := hc c
          refine ⟨rs, v * c :: s, by simpa [proverAttrs, responses] using hr, ?_, by simp [hl], ?_⟩
          · simp only [shown, List.zipWith_cons_cons, if_true, attrScalars] at hs ⊢
            rw [hs]; rfl
          · simp only [dot_cons, hd]; module
        | false =>
          obtain ⟨B, gs, hb, hc⟩ := ih (k + 1) vals rev (b + gamma k • y) (by simpa using h1) (by simpa using h2)
          refine ⟨B, gamma k :: gs, ?_, fun c => ?_⟩
          · simp only [proverAttrs, List.zipWith_cons_cons, Bool.false_eq_true, if_false, blindLoop] at hb ⊢
            rw [hb]; rfl
          obtain ⟨rs, s, hr, hs, hl, hd⟩ := hc c
          refine ⟨(c * v + gamma k) :: rs, (c * v + gamma k) :: s, ?_, ?_, by simp [hl], ?_⟩
          · simp only [proverAttrs, List.zipWith_cons_cons, Bool.false_eq_true, if_false, responses] at hr ⊢
            rw [hr]; rfl
          · simp only [shown, List.zipWith_cons_cons, Bool.false_eq_true, if_false, attrScalars] at hs ⊢
            rw [hs]; rfl
          · simp only [dot_cons, hd]; module

/-- the verification equation -/
def Equation (P : Pairing F G1 G2 Gt) (ipk : IssuerPK G1 G2) (cm : Sig G1) (proof : PoK F G2) (s : List F) (c : F) : Prop :=
  P.e cm.sigma1 (proof.responseT • ipk.gen2 + c • ipk.xx2 + proof.responseSk • ipk.zz2 - proof.blinding
    + sumOfProducts s ipk.yy2) = c • P.e cm.sigma2 ipk.gen2

theorem attrScalars_length (c : F) (attrs : List (Attr F)) (rs s : List F) (h : attrScalars c attrs rs = .ok s) :
    s.length = attrs.length := by
  induction attrs generalizing rs s with
  | nil => simp [attrScalars] at h; subst h; rfl
  | cons a as ih =>
    cases a with
    | revealed v =>
      simp only [attrScalars] at h
      obtain ⟨s', h1, h2⟩ := Res.bind_eq_ok.mp h
      simp only [Res.pure_eq, Res.ok.injEq] at h2
      subst h2; simp [ih rs s' h1]
    | hidden o =>
      cases rs with
      | nil => simp [attrScalars] at h
      | cons r rs =>
        simp only [attrScalars] at h
        obtain ⟨s', h1, h2⟩ := Res.bind_eq_ok.mp h
        simp only [Res.pure_eq, Res.ok.injEq] at h2
        subst h2; simp [ih rs s' h1]

theorem attrScalars_ok (c : F) (attrs : List (Attr F)) (rs : List F) (h : hiddenCount attrs ≤ rs.length) :
    ∃ s, attrScalars c attrs rs = .ok s := by
  induction attrs generalizing rs with
  | nil => exact ⟨[], rfl⟩
  | cons a as ih =>
    cases a with
    | revealed v =>
      obtain ⟨s, hs⟩ := ih rs (by simpa [hiddenCount] using h)
      exact ⟨v * c :: s, by simp [attrScalars, hs]⟩
    | hidden o =>
      cases rs with
      | nil => simp [hiddenCount] at h
      | cons r rs =>
        obtain ⟨s, hs⟩ := ih rs (by simpa [hiddenCount] using h)
        exact ⟨r :: s, by simp [attrScalars, hs]⟩

theorem attrScalars_err (c : F) (attrs : List (Attr F)) (rs : List F) (h : rs.length < hiddenCount attrs) :
    attrScalars c attrs rs = .err := by
  induction attrs generalizing rs with
  | nil => simp [hiddenCount] at h
  | cons a as ih =>
    cases a with
    | revealed v => simp [attrScalars, ih rs (by simpa [hiddenCount] using h)]
    | hidden o =>
      cases rs with
      | nil => simp [attrScalars]
      | cons r rs => simp [attrScalars, ih rs (by simpa [hiddenCount] using h)]

/-- with the default multi-exponentiation the verifier checks the equation -/
theorem verifyPok_iff [DecidableEq Gt] (P : Pairing F G1 G2 Gt) (ipk : IssuerPK G1 G2) (cm : Sig G1) (proof : PoK F G2)
    (attrs : List (Attr F)) (c : F) :
    verifyPok P multiExpDefault ipk cm proof attrs c = .ok () ↔
      ∃ s, attrScalars c attrs proof.responseAttrs = .ok s ∧ attrs.length < 796 ∧ Equation P ipk cm proof s c := by
  unfold verifyPok
  cases hs : attrScalars c attrs proof.responseAttrs with
  | err => simp
  | panic => simp
  | ok s =>
    have hl := attrScalars_length c attrs _ s hs
    simp only [Res.bind_ok, Res.ok.injEq, exists_eq_left']
    by_cases h8 : attrs.length < 796
    · rw [me_default _ _ (by simp [hl]; omega)]
      simp only [Res.bind_ok, h8, true_and, Equation]
      rw [four_dot, P.smul_left]
      have : proof.responseT • ipk.gen2 + c • ipk.xx2 + proof.responseSk • ipk.zz2 + (-1 : F) • proof.blinding =
        proof.responseT • ipk.gen2 + c • ipk.xx2 + proof.responseSk • ipk.zz2 - proof.blinding := by module
      rw [this]
      split <;> simp_all
    · have : multiExpDefault ([proof.responseT, c, proof.responseSk, -1] ++ s)
        ([ipk.gen2, ipk.xx2, ipk.zz2, proof.blinding] ++ ipk.yy2) = .panic := by
        simp [multiExpDefault, hl]; omega
      rw [this]
      simp [h8]

theorem e_sub_right (P : Pairing F G1 G2 Gt) (g : G1) (a b : G2) : P.e g (a - b) = P.e g a - P.e g b := by
  have h : P.e g (a - b + b) = P.e g (a - b) + P.e g b := P.add_right _ _ _
  rw [sub_add_cancel] at h
  rw [h]; abel

theorem e_zero_left (P : Pairing F G1 G2 Gt) (h : G2) : P.e 0 h = 0 := by
  have := P.smul_left (0 : F) 0 h
  simpa using this

theorem e_zero_right (P : Pairing F G1 G2 Gt) (g : G1) : P.e g 0 = 0 := by
  have := P.smul_right (0 : F) g 0
  simpa using this

theorem exponent_eq (x : F) (attrs y : List F) :
    (attrs.zip y).foldl (fun acc p => acc + p.1 * p.2) x = x + (List.zipWith (· * ·) attrs y).sum := by
  induction attrs generalizing x y with
  | nil => simp
  | cons a as ih => cases y with
    | nil => simp
    | cons y ys => simp [ih, add_assoc]

theorem dot_gen (attrs y : List F) (g : G2) :
    sumOfProducts attrs (y.map (· • g)) = ((List.zipWith (· * ·) attrs y).sum : F) • g := by
  induction attrs generalizing y with
  | nil => simp [dot_nil]
  | cons a as ih => cases y with
    | nil => simp [dot_nil_right]
    | cons y ys =>
      simp only [List.map_cons, dot_cons, ih, List.zipWith_cons_cons, List.sum_cons]
      module

/-- a commitment that opens: without its randomizer it is a signature in the sense of the pairing equation -/
def Commits (P : Pairing F G1 G2 Gt) (ipk : IssuerPK G1 G2) (cm : Sig G1) (t sk : F) (attrs : List F) : Prop :=
  P.e cm.sigma1 (ipk.xx2 + t • ipk.gen2 + sk • ipk.zz2 + sumOfProducts attrs ipk.yy2) = P.e cm.sigma2 ipk.gen2

theorem commits_of_grant (P : Pairing F G1 G2 Gt) (x z : F) (gen1 : G1) (gen2 : G2) (y : List F) (sk : F) (attrs : List F)
    (u : F) (sig : Sig G1) (rand : Randomizer F)
    (h : grant (issuerKeygen x z gen1 gen2 y).1 (userKeygen (issuerKeygen x z gen1 gen2 y).2 sk).2 attrs u = .ok sig) :
    attrs.length = y.length ∧
      Commits P (issuerKeygen x z gen1 gen2 y).2 (comm sig rand) rand.t sk attrs := by
  unfold grant at h
  split at h
  · simp at h
  · rename_i hl
    simp only [issuerKeygen, userKeygen, Res.ok.injEq] at h hl
    refine ⟨by simpa using (not_not.mp hl).symm, ?_⟩
    subst h
    simp only [Commits, issuerKeygen, comm, dot_gen, exponent_eq]
    have e1 : x • gen2 + rand.t • gen2 + sk • z • gen2 + (List.zipWith (· * ·) attrs y).sum • gen2 =
      (x + rand.t + sk * z + (List.zipWith (· * ·) attrs y).sum) • gen2 := by module
    have e2 : rand.r • (u • (sk • z • gen1 + (x + (List.zipWith (· * ·) attrs y).sum) • gen1) + rand.t • u • gen1) =
      ((x + rand.t + sk * z + (List.zipWith (· * ·) attrs y).sum)) • (rand.r • u • gen1) := by module
    rw [e1, e2, P.smul_right]
    generalize x + rand.t + sk * z + (List.zipWith (· * ·) attrs y).sum = k
    exact (P.smul_left k _ _).symm

theorem provePok_verifies [DecidableEq Gt] (P : Pairing F G1 G2 Gt) (H : Tr G1 G2 → F) (tr : Tr G1 G2) (bl : Blinds F)
    (sk : F) (ipk : IssuerPK G1 G2) (cm : Sig G1) (t : F) (vals : List F) (rev : List Bool)
    (h1 : vals.length = ipk.yy2.length) (h2 : rev.length = ipk.yy2.length) (h8 : ipk.yy2.length < 796)
    (hc : Commits P ipk cm t sk vals) :
    ∃ proof, provePok H tr bl sk ipk t (proverAttrs vals rev) = .ok proof ∧
      verifyPok P multiExpDefault ipk cm proof (shown vals rev) (H (tr ++ [.elem2 "proof_commitment" proof.blinding])) =
        .ok () := by
  obtain ⟨B, gs, hb, hk⟩ := honest_core bl.gamma 0 ipk.yy2 vals rev (bl.beta1 • ipk.gen2 + bl.beta2 • ipk.zz2) h1 h2
  obtain ⟨rs, s, hr, hs, hl, hd⟩ := hk (H (tr ++ [.elem2 "proof_commitment" B]))
  generalize hcv : H (tr ++ [.elem2 "proof_commitment" B]) = c at *
  refine ⟨⟨B, c * t + bl.beta1, c * sk + bl.beta2, rs⟩, ?_, ?_⟩
  · unfold provePok
    rw [hb]
    simp only [Res.bind_ok, hcv]
    rw [hr]; rfl
  · simp only [hcv]
    rw [verifyPok_iff]
    refine ⟨s, hs, ?_, ?_⟩
    · simp [shown, h1, h2]; omega
    · unfold Equation
      simp only [hd]
      unfold Commits at hc
      rw [← hc, ← P.smul_right]
      congr 1
      module

theorem replicate_shown (vals : List F) :
    shown vals (List.replicate vals.length false) = List.replicate vals.length (.hidden none) := by
  induction vals with
  | nil => rfl
  | cons v vals ih => simpa [shown, List.replicate_succ] using ih

theorem replicate_prover (vals : List F) :
    proverAttrs vals (List.replicate vals.length false) = vals.map (fun a => .hidden (some a)) := by
  induction vals with
  | nil => rfl
  | cons v vals ih => simpa [proverAttrs, List.replicate_succ] using ih

/-! ### C39 -/

/-- C39: an issued credential, committed to with any randomizer and opened with any reveal map, is accepted when shown with
exactly the revealed attributes.  The number of attributes is below 796: the verifier's multi-exponentiation has four more
terms and panics from 800 on (C32). -/
theorem C39_open_partial [DecidableEq Gt] (P : Pairing F G1 G2 Gt) (H : Tr G1 G2 → F) (x z : F) (gen1 : G1) (gen2 : G2)
    (y : List F) (sk u : F) (attrs : List F) (revealMap : List Bool) (rand : Randomizer F) (bl : Blinds F)
    (hn : attrs.length = y.length) (hr : revealMap.length = attrs.length) (h8 : y.length < 796) :
    let keys := issuerKeygen x z gen1 gen2 y
    ∃ sig cm proof, grant keys.1 (userKeygen keys.2 sk).2 attrs u = .ok sig ∧
      openCredential P H rand bl sk ⟨sig, attrs, keys.2⟩ revealMap = .ok (cm, proof) ∧
      verifyOpen P multiExpDefault H keys.2 cm proof (shown attrs revealMap) = .ok () := by
  intro keys
  obtain ⟨sig, hg⟩ : ∃ sig, grant keys.1 (userKeygen keys.2 sk).2 attrs u = .ok sig := by
    unfold grant
    rw [if_neg (by simp [keys, issuerKeygen, hn])]
    exact ⟨_, rfl⟩
  obtain ⟨_, hc⟩ := commits_of_grant P x z gen1 gen2 y sk attrs u sig rand hg
  obtain ⟨proof, hp, hv⟩ := provePok_verifies P H (initPok P [.label "AC Reveal PoK Instance"] keys.2 (comm sig rand)) bl sk
    keys.2 (comm sig rand) rand.t attrs revealMap (by simp [keys, issuerKeygen, hn]) (by simp [keys, issuerKeygen, hr, hn])
    (by simpa [keys, issuerKeygen] using h8) hc
  refine ⟨sig, comm sig rand, proof, hg, ?_, ?_⟩
  · simp only [openCredential, openComm, hr, ne_eq, not_true_eq_false, if_false]
    rw [hp]; rfl
  · exact hv

/-- C39: the commitment with its validity proof is accepted for the message it was made for. -/
theorem C39_commit_partial [DecidableEq Gt] (P : Pairing F G1 G2 Gt) (H : Tr G1 G2 → F) (x z : F) (gen1 : G1) (gen2 : G2)
    (y : List F) (sk u : F) (attrs : List F) (rand : Randomizer F) (bl : Blinds F) (m : Bytes)
    (hn : attrs.length = y.length) (h8 : y.length < 796) :
    let keys := issuerKeygen x z gen1 gen2 y
    ∃ sig cm proof, grant keys.1 (userKeygen keys.2 sk).2 attrs u = .ok sig ∧
      commit P H bl sk ⟨sig, attrs, keys.2⟩ rand m = .ok (cm, proof) ∧ cm = comm sig rand ∧
      checkComm P multiExpDefault H keys.2 cm proof m = .ok () := by
  intro keys
  obtain ⟨sig, hg⟩ : ∃ sig, grant keys.1 (userKeygen keys.2 sk).2 attrs u = .ok sig := by
    unfold grant
    rw [if_neg (by simp [keys, issuerKeygen, hn])]
    exact ⟨_, rfl⟩
  obtain ⟨_, hc⟩ := commits_of_grant P x z gen1 gen2 y sk attrs u sig rand hg
  obtain ⟨proof, hp, hv⟩ := provePok_verifies P H
    (initPok P [.label "AC Commit SoK Instance"] keys.2 (comm sig rand) ++ [.bytes "Signature Message" m]) bl sk
    keys.2 (comm sig rand) rand.t attrs (List.replicate attrs.length false) (by simp [keys, issuerKeygen, hn])
    (by simp [keys, issuerKeygen, hn]) (by simpa [keys, issuerKeygen] using h8) hc
  rw [replicate_prover] at hp
  rw [replicate_shown] at hv
  refine ⟨sig, comm sig rand, proof, hg, ?_, rfl, ?_⟩
  · unfold commit
    simp only [hp, Res.bind_ok, Res.pure_eq]
  · unfold checkComm commitPoint
    have : keys.2.yy2.length = attrs.length := by simp [keys, issuerKeygen, hn]
    rw [this]
    exact hv

/-- C39, at the interface with 32-bit attributes: revealing and verifying. -/
theorem C39_api_partial [DecidableEq Gt] (P : Pairing F G1 G2 Gt) (H : Tr G1 G2 → F) (x z : F) (gen1 : G1) (gen2 : G2)
    (y : List F) (sk u : F) (attrs : List UInt32) (revealMap : List Bool) (rand : Randomizer F) (bl : Blinds F)
    (hn : attrs.length = y.length) (hr : revealMap.length = attrs.length) (h8 : y.length < 796) :
    let keys := issuerKeygen x z gen1 gen2 y
    ∃ sig cm proof, grant keys.1 (userKeygen keys.2 sk).2 (attrs.map (fun a => (a.toNat : F))) u = .ok sig ∧
      acReveal P H rand bl sk sig attrs keys.2 revealMap = .ok (cm, proof) ∧
      acVerify P multiExpDefault H keys.2 (List.zipWith (fun a b => if b then some a else none) attrs revealMap) cm proof =
        .ok () := by
  intro keys
  obtain ⟨sig, cm, proof, h1, h2, h3⟩ := C39_open_partial P H x z gen1 gen2 y sk u (attrs.map (fun a => (a.toNat : F)))
    revealMap rand bl (by simpa using hn) (by simpa using hr) h8
  refine ⟨sig, cm, proof, h1, h2, ?_⟩
  unfold acVerify
  convert h3 using 1
  congr 1
  unfold shown
  clear h1 h2 h3 hn
  induction attrs generalizing revealMap with
  | nil => rfl
  | cons a as ih => cases revealMap with
    | nil => simp at hr
    | cons b bs =>
      simp only [List.zipWith_cons_cons, List.map_cons]
      rw [ih bs (by simpa using hr)]
      cases b <;> rfl

/-- C39: the attributes shown are the ones `get_revealed_attributes` lists. -/
theorem C39_revealed_attributes (attrs : List F) (revealMap : List Bool) (hr : revealMap.length = attrs.length) :
    getRevealed attrs revealMap =
      .ok ((shown attrs revealMap).filterMap (fun a => match a with | .revealed v => some v | .hidden _ => none)) := by
  unfold getRevealed
  rw [if_neg (by simp [hr])]
  congr 1
  induction attrs generalizing revealMap with
  | nil => simp [shown]
  | cons a as ih => cases revealMap with
    | nil => simp at hr
    | cons b bs =>
      have := ih bs (by simpa using hr)
      cases b with
      | true => simpa [shown] using this
      | false => simpa [shown] using this

/-- Wrong numbers of attributes or of reveal flags are refused. -/
theorem C39_lengths_refused (P : Pairing F G1 G2 Gt) (H : Tr G1 G2 → F) (isk : IssuerSK F G1) (upk : G1) (attrs : List F)
    (u : F) (rand : Randomizer F) (bl : Blinds F) (sk : F) (cred : Credential F G1 G2) (revealMap : List Bool) :
    (attrs.length ≠ isk.y.length → grant isk upk attrs u = .err) ∧
    (revealMap.length ≠ cred.attrs.length → openCredential P H rand bl sk cred revealMap = .err ∧
      getRevealed cred.attrs revealMap = .err) := by
  constructor
  · intro h
    unfold grant
    rw [if_pos (Ne.symm h)]
  · intro h
    simp only [openCredential, openComm, getRevealed]
    rw [if_pos (Ne.symm h), if_pos h]
    exact ⟨rfl, rfl⟩

/-- C39 does not hold for large keys: with 796 attributes or more the verifier panics on every presentation that has
enough responses. -/
theorem C39_large_keys_panic [DecidableEq Gt] (P : Pairing F G1 G2 Gt) (H : Tr G1 G2 → F) (ipk : IssuerPK G1 G2)
    (cm : Sig G1) (proof : PoK F G2) (attrs : List (Attr F)) (h8 : 796 ≤ attrs.length)
    (hr : hiddenCount attrs ≤ proof.responseAttrs.length) :
    verifyOpen P multiExpDefault H ipk cm proof attrs = .panic := by
  unfold verifyOpen verifyPok
  obtain ⟨s, hs⟩ := attrScalars_ok (H (openPoint P ipk cm proof.blinding)) attrs proof.responseAttrs hr
  have hl := attrScalars_length _ _ _ _ hs
  rw [hs]
  have : multiExpDefault ([proof.responseT, H (openPoint P ipk cm proof.blinding), proof.responseSk, -1] ++ s)
        ([ipk.gen2, ipk.xx2, ipk.zz2, proof.blinding] ++ ipk.yy2) = .panic := by
    simp [multiExpDefault, hl]; omega
  simp only [Res.bind_ok]
  rw [this]; rfl

/-- The prover's "safe unwrap" is not: a credential listing more attributes than the issuer's key has makes `commit`
panic. -/
theorem C39_extra_attribute_panics (P : Pairing F G1 G2 Gt) (H : Tr G1 G2 → F) (bl : Blinds F) (sk : F)
    (cred : Credential F G1 G2) (rand : Randomizer F) (m : Bytes) (h : cred.ipk.yy2.length < cred.attrs.length) :
    commit P H bl sk cred rand m = .panic := by
  have hb : ∀ (ys : List G2) (vals : List F) (k : Nat) (b : G2), ys.length < vals.length →
      ∃ B gs, blindLoop bl.gamma k ys (vals.map (fun a => .hidden (some a))) b = .ok (B, gs) ∧
        ∀ c, responses c (vals.map (fun a => .hidden (some a))) gs = .panic := by
    intro ys
    induction ys with
    | nil =>
      intro vals k b hl
      cases vals with
      | nil => simp at hl
      | cons v vals => exact ⟨b, [], by simp [blindLoop], fun c => by simp [responses]⟩
    | cons y ys ih =>
      intro vals k b hl
      cases vals with
      | nil => simp at hl
      | cons v vals =>
        obtain ⟨B, gs, h1, h2⟩ := ih vals (k + 1) (b + bl.gamma k • y) (by simpa using hl)
        refine ⟨B, bl.gamma k :: gs, ?_, fun c => ?_⟩
        · simp only [List.map_cons, blindLoop]; rw [h1]; rfl
        · simp only [List.map_cons, responses]; rw [h2]; rfl
  obtain ⟨B, gs, h1, h2⟩ := hb cred.ipk.yy2 cred.attrs 0 (bl.beta1 • cred.ipk.gen2 + bl.beta2 • cred.ipk.zz2) h
  unfold commit provePok
  simp only [h1, Res.bind_ok, h2, Res.bind_panic]

/-! ### C40 -/

/-- C40: exactly what the verifier of a presentation checks. -/
theorem C40_accepts_iff [DecidableEq Gt] (P : Pairing F G1 G2 Gt) (H : Tr G1 G2 → F) (ipk : IssuerPK G1 G2) (cm : Sig G1)
    (proof : PoK F G2) (attrs : List (Attr F)) :
    verifyOpen P multiExpDefault H ipk cm proof attrs = .ok () ↔
      attrs.length < 796 ∧ ∃ s, attrScalars (H (openPoint P ipk cm proof.blinding)) attrs proof.responseAttrs = .ok s ∧
        Equation P ipk cm proof s (H (openPoint P ipk cm proof.blinding)) := by
  unfold verifyOpen
  rw [verifyPok_iff]
  constructor
  · rintro ⟨s, h1, h2, h3⟩; exact ⟨h2, s, h1, h3⟩
  · rintro ⟨h2, s, h1, h3⟩; exact ⟨s, h1, h2, h3⟩

theorem extractAttrs_spec (c c' : F) (hc : c ≠ c') (attrs : List (Attr F)) (rs rs' s s' : List F) (ys : List G2)
    (h : attrScalars c attrs rs = .ok s) (h' : attrScalars c' attrs rs' = .ok s') :
    (extractAttrs c c' attrs rs rs').length = attrs.length ∧ Shows attrs (extractAttrs c c' attrs rs rs') ∧
      sumOfProducts s ys - sumOfProducts s' ys = (c - c') • sumOfProducts (extractAttrs c c' attrs rs rs') ys := by
  have hcc : c - c' ≠ 0 := sub_ne_zero.mpr hc
  induction attrs generalizing rs rs' s s' ys with
  | nil =>
    simp only [attrScalars, Res.ok.injEq] at h h'
    subst h; subst h'
    exact ⟨rfl, List.Forall₂.nil, by simp [extractAttrs, dot_nil]⟩
  | cons a as ih =>
    cases a with
    | revealed v =>
      simp only [attrScalars] at h h'
      obtain ⟨t, h1, h2⟩ := Res.bind_eq_ok.mp h
      obtain ⟨t', h1', h2'⟩ := Res.bind_eq_ok.mp h'
      simp only [Res.pure_eq, Res.ok.injEq] at h2 h2'
      subst h2; subst h2'
      obtain ⟨i1, i2, _⟩ := ih rs rs' t t' [] h1 h1'
      refine ⟨by simp [extractAttrs, i1], List.Forall₂.cons (by intro w hw; injection hw) i2, ?_⟩
      cases ys with
      | nil => simp [dot_nil_right]
      | cons y ys =>
        obtain ⟨_, _, i3⟩ := ih rs rs' t t' ys h1 h1'
        simp only [extractAttrs, dot_cons]
        linear_combination (norm := module) i3
    | hidden o =>
      cases rs with
      | nil => simp [attrScalars] at h
      | cons r rs => cases rs' with
        | nil => simp [attrScalars] at h'
        | cons r' rs' =>
          simp only [attrScalars] at h h'
          obtain ⟨t, h1, h2⟩ := Res.bind_eq_ok.mp h
          obtain ⟨t', h1', h2'⟩ := Res.bind_eq_ok.mp h'
          simp only [Res.pure_eq, Res.ok.injEq] at h2 h2'
          subst h2; subst h2'
          obtain ⟨i1, i2, _⟩ := ih rs rs' t t' [] h1 h1'
          refine ⟨by simp [extractAttrs, i1], List.Forall₂.cons (by intro w hw; cases hw) i2, ?_⟩
          cases ys with
          | nil => simp [dot_nil_right]
          | cons y ys =>
            obtain ⟨_, _, i3⟩ := ih rs rs' t t' ys h1 h1'
            simp only [extractAttrs, dot_cons]
            have e : (c - c') • ((r - r') / (c - c')) • y = (r - r') • y := by
              rw [smul_smul, mul_div_cancel₀ _ hcc]
            rw [smul_add, e]
            linear_combination (norm := module) i3

/-- two accepted equations with the same commitments and different challenges -/
theorem equations_extract (P : Pairing F G1 G2 Gt) (ipk : IssuerPK G1 G2) (cm : Sig G1) (proof proof' : PoK F G2)
    (s s' xs : List F) (c c' : F) (hc : c ≠ c') (hb : proof'.blinding = proof.blinding)
    (h : Equation P ipk cm proof s c) (h' : Equation P ipk cm proof' s' c')
    (hx : sumOfProducts s ipk.yy2 - sumOfProducts s' ipk.yy2 = (c - c') • sumOfProducts xs ipk.yy2) :
    P.e (extractSig cm proof proof' c c').sigma1
      (ipk.xx2 + ((proof.responseSk - proof'.responseSk) / (c - c')) • ipk.zz2 + sumOfProducts xs ipk.yy2) =
      P.e (extractSig cm proof proof' c c').sigma2 ipk.gen2 := by
  have hcc : c - c' ≠ 0 := sub_ne_zero.mpr hc
  unfold Equation at h h'
  rw [hb] at h'
  generalize proof.blinding = B at *
  have h3 : P.e cm.sigma1 ((c - c') • (ipk.xx2 + ((proof.responseT - proof'.responseT) / (c - c')) • ipk.gen2 +
      ((proof.responseSk - proof'.responseSk) / (c - c')) • ipk.zz2 + sumOfProducts xs ipk.yy2)) =
      (c - c') • P.e cm.sigma2 ipk.gen2 := by
    have e : (c - c') • (ipk.xx2 + ((proof.responseT - proof'.responseT) / (c - c')) • ipk.gen2 +
      ((proof.responseSk - proof'.responseSk) / (c - c')) • ipk.zz2 + sumOfProducts xs ipk.yy2) =
      (proof.responseT • ipk.gen2 + c • ipk.xx2 + proof.responseSk • ipk.zz2 - B + sumOfProducts s ipk.yy2) -
      (proof'.responseT • ipk.gen2 + c' • ipk.xx2 + proof'.responseSk • ipk.zz2 - B + sumOfProducts s' ipk.yy2) := by
      simp only [smul_add]
      rw [← hx]
      have e1 : (c - c') • ((proof.responseT - proof'.responseT) / (c - c')) • ipk.gen2 =
        (proof.responseT - proof'.responseT) • ipk.gen2 := by rw [smul_smul, mul_div_cancel₀ _ hcc]
      have e2 : (c - c') • ((proof.responseSk - proof'.responseSk) / (c - c')) • ipk.zz2 =
        (proof.responseSk - proof'.responseSk) • ipk.zz2 := by rw [smul_smul, mul_div_cancel₀ _ hcc]
      rw [e1, e2]
      module
    rw [e, e_sub_right, h, h']
    module
  rw [P.smul_right] at h3
  have h4 := smul_right_injective Gt hcc h3
  simp only [extractSig]
  set t := (proof.responseT - proof'.responseT) / (c - c')
  set k := (proof.responseSk - proof'.responseSk) / (c - c')
  have h5 : P.e cm.sigma2 ipk.gen2 = P.e (cm.sigma2 - t • cm.sigma1) ipk.gen2 + P.e (t • cm.sigma1) ipk.gen2 := by
    rw [← P.add_left, sub_add_cancel]
  have h6 : P.e cm.sigma1 (ipk.xx2 + t • ipk.gen2 + k • ipk.zz2 + sumOfProducts xs ipk.yy2) =
      P.e cm.sigma1 (ipk.xx2 + k • ipk.zz2 + sumOfProducts xs ipk.yy2) + P.e cm.sigma1 (t • ipk.gen2) := by
    rw [← P.add_right]; congr 1; abel
  rw [h6] at h4
  rw [h5, P.smul_left, P.smul_right] at h4
  exact add_right_cancel h4

/-- C40 (special soundness): from two presentations of a commitment whose first element is not the identity, accepted with
the same proof commitment under different challenges and for the same attribute list of the right length, one computes a
valid signature of the issuer on the extracted secret key and attributes, the extracted attributes being the shown ones
wherever an attribute is revealed.  Missing for the full property: see `C40_identity_commitment_accepted` and
`C40_extra_attribute_accepted`. -/
theorem C40_special_sound_partial [DecidableEq Gt] (P : Pairing F G1 G2 Gt) (H H' : Tr G1 G2 → F) (ipk : IssuerPK G1 G2)
    (cm : Sig G1) (proof proof' : PoK F G2) (attrs : List (Attr F))
    (hcm : cm.sigma1 ≠ 0) (hn : attrs.length = ipk.yy2.length) (hb : proof'.blinding = proof.blinding)
    (hc : H (openPoint P ipk cm proof.blinding) ≠ H' (openPoint P ipk cm proof.blinding))
    (h : verifyOpen P multiExpDefault H ipk cm proof attrs = .ok ())
    (h' : verifyOpen P multiExpDefault H' ipk cm proof' attrs = .ok ()) :
    let c := H (openPoint P ipk cm proof.blinding)
    let c' := H' (openPoint P ipk cm proof.blinding)
    let xs := extractAttrs c c' attrs proof.responseAttrs proof'.responseAttrs
    ValidSig P ipk (extractSig cm proof proof' c c') ((proof.responseSk - proof'.responseSk) / (c - c')) xs ∧
      Shows attrs xs := by
  intro c c' xs
  obtain ⟨_, s, hs, he⟩ := (C40_accepts_iff P H ipk cm proof attrs).mp h
  obtain ⟨_, s', hs', he'⟩ := (C40_accepts_iff P H' ipk cm proof' attrs).mp h'
  rw [hb] at hs' he'
  obtain ⟨i1, i2, i3⟩ := extractAttrs_spec c c' hc attrs _ _ s s' ipk.yy2 hs hs'
  exact ⟨⟨by rw [i1, hn], hcm, equations_extract P ipk cm proof proof' s s' xs c c' hc hb he he' i3⟩, i2⟩

/-- C40: the same for the validity proof of a commitment: it proves knowledge of a signature, for the message given. -/
theorem C40_commit_special_sound_partial [DecidableEq Gt] (P : Pairing F G1 G2 Gt) (H H' : Tr G1 G2 → F)
    (ipk : IssuerPK G1 G2) (cm : Sig G1) (proof proof' : PoK F G2) (m : Bytes)
    (hcm : cm.sigma1 ≠ 0) (hb : proof'.blinding = proof.blinding)
    (hc : H (commitPoint P ipk cm m proof.blinding) ≠ H' (commitPoint P ipk cm m proof.blinding))
    (h : checkComm P multiExpDefault H ipk cm proof m = .ok ())
    (h' : checkComm P multiExpDefault H' ipk cm proof' m = .ok ()) :
    let c := H (commitPoint P ipk cm m proof.blinding)
    let c' := H' (commitPoint P ipk cm m proof.blinding)
    let xs := extractAttrs c c' (List.replicate ipk.yy2.length (.hidden none)) proof.responseAttrs proof'.responseAttrs
    ValidSig P ipk (extractSig cm proof proof' c c') ((proof.responseSk - proof'.responseSk) / (c - c')) xs := by
  intro c c' xs
  unfold checkComm at h h'
  rw [hb] at h'
  obtain ⟨s, hs, _, he⟩ := (verifyPok_iff P ipk cm proof _ _).mp h
  obtain ⟨s', hs', _, he'⟩ := (verifyPok_iff P ipk cm proof' _ _).mp h'
  obtain ⟨i1, i2, i3⟩ := extractAttrs_spec c c' hc _ _ _ s s' ipk.yy2 hs hs'
  exact ⟨by rw [i1]; simp, hcm, equations_extract P ipk cm proof proof' s s' xs c c' hc hb he he' i3⟩

/-- C40: a valid signature is one the issuer's `grant_credential` produces for the user key of `sk` on these attributes.
The first group is generated by `gen1` and the pairing of the generators is not trivial. -/
theorem C40_valid_iff_granted (P : Pairing F G1 G2 Gt) (x z : F) (gen1 : G1) (gen2 : G2) (y : List F) (sk : F)
    (attrs : List F) (sig : Sig G1) (hgen : ∀ g : G1, ∃ u : F, g = u • gen1) (hnd : P.e gen1 gen2 ≠ 0) :
    let keys := issuerKeygen x z gen1 gen2 y
    ValidSig P keys.2 sig sk attrs ↔
      ∃ u, u ≠ 0 ∧ grant keys.1 (userKeygen keys.2 sk).2 attrs u = .ok sig := by
  intro keys
  have hg1 : gen1 ≠ 0 := by rintro rfl; exact hnd (e_zero_left P gen2)
  constructor
  · rintro ⟨hl, hs, he⟩
    obtain ⟨u, hu⟩ := hgen sig.sigma1
    obtain ⟨v, hv⟩ := hgen sig.sigma2
    refine ⟨u, ?_, ?_⟩
    · rintro rfl; exact hs (by rw [hu, zero_smul])
    · have hl' : attrs.length = y.length := by simpa [keys, issuerKeygen] using hl
      unfold grant
      rw [if_neg (by simp [keys, issuerKeygen, hl'])]
      simp only [keys, issuerKeygen, userKeygen, exponent_eq, dot_gen] at he ⊢
      set S := (List.zipWith (· * ·) attrs y).sum
      have e1 : x • gen2 + sk • z • gen2 + S • gen2 = (x + sk * z + S) • gen2 := by module
      rw [hu, hv, e1, P.smul_right, P.smul_left, P.smul_left, smul_smul] at he
      have h2 : ((x + sk * z + S) * u - v) • P.e gen1 gen2 = 0 := by rw [sub_smul, he, sub_self]
      rcases smul_eq_zero.mp h2 with h3 | h3
      · have hv2 : v = (x + sk * z + S) * u := (sub_eq_zero.mp h3).symm
        cases sig with
        | mk s1 s2 =>
          simp only at hu hv
          subst hu; subst hv
          simp only [Res.ok.injEq, Sig.mk.injEq, true_and]
          rw [hv2]
          module
      · exact absurd h3 hnd
  · rintro ⟨u, hu, hg⟩
    obtain ⟨hl, hc⟩ := commits_of_grant P x z gen1 gen2 y sk attrs u sig ⟨1, 0⟩ hg
    have hs : sig.sigma1 = u • gen1 := by
      unfold grant at hg
      split at hg
      · simp at hg
      · simp only [Res.ok.injEq] at hg
        rw [← hg]; rfl
    refine ⟨by simp [keys, issuerKeygen, hl], ?_, ?_⟩
    · rw [hs]; exact smul_ne_zero hu hg1
    · simpa [Commits, comm] using hc

/-- the differences of the revealed attributes, zero at the hidden ones -/
def difference : List (Attr F) → List (Attr F) → List F
  | .revealed a :: as, .revealed b :: bs => (a - b) :: difference as bs
  | _ :: as, _ :: bs => 0 :: difference as bs
  | _, _ => []

/-- the two lists hide the same positions -/
def SamePattern (as bs : List (Attr F)) : Prop :=
  List.Forall₂ (fun a b => (∃ v w, a = .revealed v ∧ b = .revealed w) ∨ ∃ v w, a = .hidden v ∧ b = .hidden w) as bs

theorem difference_spec (c : F) (as bs : List (Attr F)) (hp : SamePattern as bs) (rs s s' : List F) (ys : List G2)
    (h : attrScalars c as rs = .ok s) (h' : attrScalars c bs rs = .ok s') :
    sumOfProducts s ys - sumOfProducts s' ys = c • sumOfProducts (difference as bs) ys := by
  induction hp generalizing rs s s' ys with
  | nil =>
    simp only [attrScalars, Res.ok.injEq] at h h'
    subst h; subst h'
    simp [difference, dot_nil]
  | @cons a b as bs hab _ ih =>
    rcases hab with ⟨v, w, rfl, rfl⟩ | ⟨v, w, rfl, rfl⟩
    · simp only [attrScalars] at h h'
      obtain ⟨t, h1, h2⟩ := Res.bind_eq_ok.mp h
      obtain ⟨t', h1', h2'⟩ := Res.bind_eq_ok.mp h'
      simp only [Res.pure_eq, Res.ok.injEq] at h2 h2'
      subst h2; subst h2'
      cases ys with
      | nil => simp [dot_nil_right]
      | cons y ys =>
        have i3 := ih rs t t' ys h1 h1'
        simp only [difference, dot_cons]
        linear_combination (norm := module) i3
    · cases rs with
      | nil => simp [attrScalars] at h
      | cons r rs =>
        simp only [attrScalars] at h h'
        obtain ⟨t, h1, h2⟩ := Res.bind_eq_ok.mp h
        obtain ⟨t', h1', h2'⟩ := Res.bind_eq_ok.mp h'
        simp only [Res.pure_eq, Res.ok.injEq] at h2 h2'
        subst h2; subst h2'
        cases ys with
        | nil => simp [dot_nil_right]
        | cons y ys =>
          have i3 := ih rs t t' ys h1 h1'
          simp only [difference, dot_cons]
          linear_combination (norm := module) i3

/-- C40: changing revealed attributes in an accepted presentation.  If the same commitment and proof are accepted with two
attribute lists hiding the same positions, the challenge is zero or the differences of the attributes are an explicit
relation between the issuer's elements `Yᵢ`.  `e(σ₁, ·)` is injective when `σ₁` is not the identity (groups of prime
order). -/
theorem C40_revealed_cannot_change_partial [DecidableEq Gt] (P : Pairing F G1 G2 Gt) (H : Tr G1 G2 → F)
    (ipk : IssuerPK G1 G2) (cm : Sig G1) (proof : PoK F G2) (as bs : List (Attr F)) (hp : SamePattern as bs)
    (hnd : ∀ h, P.e cm.sigma1 h = 0 → h = 0)
    (h : verifyOpen P multiExpDefault H ipk cm proof as = .ok ())
    (h' : verifyOpen P multiExpDefault H ipk cm proof bs = .ok ()) :
    H (openPoint P ipk cm proof.blinding) = 0 ∨ sumOfProducts (difference as bs) ipk.yy2 = 0 := by
  obtain ⟨_, s, hs, he⟩ := (C40_accepts_iff P H ipk cm proof as).mp h
  obtain ⟨_, s', hs', he'⟩ := (C40_accepts_iff P H ipk cm proof bs).mp h'
  have hd := difference_spec _ as bs hp _ s s' ipk.yy2 hs hs'
  unfold Equation at he he'
  have h1 : P.e cm.sigma1 (sumOfProducts s ipk.yy2 - sumOfProducts s' ipk.yy2) = 0 := by
    have := sub_eq_zero.mpr (he.trans he'.symm)
    rw [← e_sub_right] at this
    convert this using 2
    abel
  have h2 := hnd _ h1
  rw [hd] at h2
  exact smul_eq_zero.mp h2

theorem difference_single (as : List (Attr F)) (a b : F) (bs : List (Attr F)) (ys : List G2)
    (hl : (as ++ .revealed a :: bs).length = ys.length) :
    ∃ y ∈ ys, sumOfProducts (difference (as ++ .revealed a :: bs) (as ++ .revealed b :: bs)) ys = (a - b) • y := by
  have hz : ∀ (l : List (Attr F)) (ys : List G2), sumOfProducts (difference l l) ys = 0 := by
    intro l
    induction l with
    | nil => intro ys; simp [difference, dot_nil]
    | cons x l ih =>
      intro ys
      cases ys with
      | nil => simp [dot_nil_right]
      | cons y ys => cases x <;> simp [difference, dot_cons, ih]
  induction as generalizing ys with
  | nil =>
    cases ys with
    | nil => simp at hl
    | cons y ys => exact ⟨y, List.mem_cons_self, by simp [difference, dot_cons, hz]⟩
  | cons x as ih =>
    cases ys with
    | nil => simp at hl
    | cons y ys =>
      obtain ⟨y', h1, h2⟩ := ih ys (by simpa using hl)
      refine ⟨y', List.mem_cons_of_mem _ h1, ?_⟩
      cases x <;> simp [difference, dot_cons, h2]

/-- C40: a single revealed attribute cannot be changed at all (nonzero challenge, no `Yᵢ` the identity). -/
theorem C40_one_attribute_cannot_change_partial [DecidableEq Gt] (P : Pairing F G1 G2 Gt) (H : Tr G1 G2 → F)
    (ipk : IssuerPK G1 G2) (cm : Sig G1) (proof : PoK F G2) (as bs : List (Attr F)) (a b : F)
    (hn : (as ++ .revealed a :: bs).length = ipk.yy2.length)
    (hnd : ∀ h, P.e cm.sigma1 h = 0 → h = 0) (hy : (0 : G2) ∉ ipk.yy2)
    (hc : H (openPoint P ipk cm proof.blinding) ≠ 0)
    (h : verifyOpen P multiExpDefault H ipk cm proof (as ++ .revealed a :: bs) = .ok ())
    (h' : verifyOpen P multiExpDefault H ipk cm proof (as ++ .revealed b :: bs) = .ok ()) : a = b := by
  have hrefl : ∀ l : List (Attr F), SamePattern l l := fun l =>
    List.forall₂_same.mpr (fun x _ => by cases x with
      | revealed v => exact Or.inl ⟨v, v, rfl, rfl⟩
      | hidden v => exact Or.inr ⟨v, v, rfl, rfl⟩)
  have hp : SamePattern (as ++ .revealed a :: bs) (as ++ .revealed b :: bs) :=
    List.rel_append (hrefl as) (List.Forall₂.cons (Or.inl ⟨a, b, rfl, rfl⟩) (hrefl bs))
  rcases C40_revealed_cannot_change_partial P H ipk cm proof _ _ hp hnd h h' with h1 | h1
  · exact absurd h1 hc
  · obtain ⟨y, hy1, hy2⟩ := difference_single as a b bs ipk.yy2 hn
    rw [hy2] at h1
    rcases smul_eq_zero.mp h1 with h3 | h3
    · exact sub_eq_zero.mp h3
    · exact absurd (h3 ▸ hy1) hy

/-- C40 does not hold as it stands: the identity commitment (which is the `Default` value) is accepted under every issuer
key, for any claimed attributes, with any proof that has enough responses.  No credential is needed. -/
theorem C40_identity_commitment_accepted [DecidableEq Gt] (P : Pairing F G1 G2 Gt) (H : Tr G1 G2 → F)
    (ipk : IssuerPK G1 G2) (proof : PoK F G2) (attrs : List (Attr F)) (h8 : attrs.length < 796)
    (hr : hiddenCount attrs ≤ proof.responseAttrs.length) :
    verifyOpen P multiExpDefault H ipk Sig.default proof attrs = .ok () := by
  rw [C40_accepts_iff]
  obtain ⟨s, hs⟩ := attrScalars_ok (H (openPoint P ipk Sig.default proof.blinding)) attrs _ hr
  refine ⟨h8, s, hs, ?_⟩
  simp [Equation, Sig.default, e_zero_left]

/-- The same for the validity proof of a commitment. -/
theorem C40_identity_commitment_checked [DecidableEq Gt] (P : Pairing F G1 G2 Gt) (H : Tr G1 G2 → F)
    (ipk : IssuerPK G1 G2) (proof : PoK F G2) (m : Bytes) (h8 : ipk.yy2.length < 796)
    (hr : ipk.yy2.length ≤ proof.responseAttrs.length) :
    checkComm P multiExpDefault H ipk Sig.default proof m = .ok () := by
  unfold checkComm
  rw [verifyPok_iff]
  obtain ⟨s, hs⟩ := attrScalars_ok (H (commitPoint P ipk Sig.default m proof.blinding))
    (List.replicate ipk.yy2.length (.hidden none)) proof.responseAttrs (by simpa [hiddenCount] using hr)
  refine ⟨s, hs, by simpa using h8, ?_⟩
  simp [Equation, Sig.default, e_zero_left]

/-- C40 does not hold as it stands: the number of attributes is not compared with the issuer's key, so an accepted
presentation stays accepted with any further "revealed" attribute at the end. -/
theorem C40_extra_attribute_accepted [DecidableEq Gt] (P : Pairing F G1 G2 Gt) (H : Tr G1 G2 → F)
    (ipk : IssuerPK G1 G2) (cm : Sig G1) (proof : PoK F G2) (attrs : List (Attr F)) (a : F)
    (hn : ipk.yy2.length ≤ attrs.length) (h8 : attrs.length < 795)
    (h : verifyOpen P multiExpDefault H ipk cm proof attrs = .ok ()) :
    verifyOpen P multiExpDefault H ipk cm proof (attrs ++ [.revealed a]) = .ok () := by
  rw [C40_accepts_iff] at h ⊢
  obtain ⟨_, s, hs, he⟩ := h
  have happ : ∀ (c : F) (as : List (Attr F)) (rs s : List F), attrScalars c as rs = .ok s →
      attrScalars c (as ++ [.revealed a]) rs = .ok (s ++ [a * c]) := by
    intro c as
    induction as with
    | nil => intro rs s h; simp only [attrScalars, Res.ok.injEq] at h; subst h; simp [attrScalars]
    | cons x as ih =>
      intro rs s h
      cases x with
      | revealed v =>
        simp only [attrScalars] at h
        obtain ⟨t, h1, h2⟩ := Res.bind_eq_ok.mp h
        simp only [Res.pure_eq, Res.ok.injEq] at h2
        subst h2
        simp [attrScalars, ih rs t h1]
      | hidden o =>
        cases rs with
        | nil => simp [attrScalars] at h
        | cons r rs =>
          simp only [attrScalars] at h
          obtain ⟨t, h1, h2⟩ := Res.bind_eq_ok.mp h
          simp only [Res.pure_eq, Res.ok.injEq] at h2
          subst h2
          simp [attrScalars, ih rs t h1]
  refine ⟨by simp; omega, _, happ _ attrs _ s hs, ?_⟩
  have hl := attrScalars_length _ _ _ _ hs
  have hd : ∀ (s : List F) (ys : List G2) (b : F), ys.length ≤ s.length → sumOfProducts (s ++ [b]) ys = sumOfProducts s ys := by
    intro s
    induction s with
    | nil => intro ys b h; simp at h; subst h; simp [dot_nil_right]
    | cons x s ih => intro ys b h; cases ys with
      | nil => simp [dot_nil_right]
      | cons y ys => simp only [List.cons_append, dot_cons]; rw [ih ys b (by simpa using h)]
  unfold Equation at he ⊢
  rw [hd s ipk.yy2 _ (by omega)]
  exact he

/-! ### Examples -/

/-- the pairing `e(a, b) = a b` of the group of order 101 with itself -/
def exPairing : Pairing (ZMod 101) (ZMod 101) (ZMod 101) (ZMod 101) where
  base1 := 1
  base2 := 1
  e a b := a * b
  add_left := by intros; ring
  add_right := by intros; ring
  smul_left := by intros; simp [mul_assoc]
  smul_right := by intros; simp; ring

/-- an oracle that depends on the proof commitment -/
def exOracle (k : ZMod 101) : Tr (ZMod 101) (ZMod 101) → ZMod 101 := fun tr =>
  match tr.getLast? with
  | some (.elem2 _ g) => g + k
  | _ => 1

def exKeys := issuerKeygen (3 : ZMod 101) 5 (7 : ZMod 101) (11 : ZMod 101) [13, 17, 19]

def exBlinds : Blinds (ZMod 101) := ⟨23, 29, fun k => 31 + k⟩

def exSig : Sig (ZMod 101) := ⟨68, 82⟩

def exCm : Sig (ZMod 101) := ⟨73, 100⟩

def exRun (k : ZMod 101) : Res (Sig (ZMod 101) × PoK (ZMod 101) (ZMod 101)) :=
  openCredential exPairing (exOracle k) ⟨59, 61⟩ exBlinds 37 ⟨exSig, [41, 43, 47], exKeys.2⟩ [false, true, false]

def exProof : PoK (ZMod 101) (ZMod 101) := ⟨41, 60, 68, [36, 87]⟩

def exProof' : PoK (ZMod 101) (ZMod 101) := ⟨41, 20, 4, [77, 33]⟩

def exShown (a : ZMod 101) : List (Attr (ZMod 101)) := [.hidden none, .revealed a, .hidden none]

/-- C39: an honest presentation revealing the second of three attributes; a wrong value of it is refused -/
example : grant exKeys.1 (userKeygen exKeys.2 (37 : ZMod 101)).2 [41, 43, 47] (53 : ZMod 101) = .ok exSig ∧
    exRun 1 = .ok (exCm, exProof) ∧
    verifyOpen exPairing multiExpDefault (exOracle 1) exKeys.2 exCm exProof (exShown 43) = .ok () ∧
    verifyOpen exPairing multiExpDefault (exOracle 1) exKeys.2 exCm exProof (exShown 44) = .err := by
  refine ⟨?_, ?_, ?_, ?_⟩ <;> decide +kernel

/-- C40: the hypotheses of special soundness: two presentations with the same proof commitment and different challenges -/
example : exRun 1 = .ok (exCm, exProof) ∧ exRun 2 = .ok (exCm, exProof') ∧
    exCm.sigma1 ≠ 0 ∧ (exShown 43).length = exKeys.2.yy2.length ∧ exProof'.blinding = exProof.blinding ∧
    exOracle 1 (openPoint exPairing exKeys.2 exCm exProof.blinding) ≠
      exOracle 2 (openPoint exPairing exKeys.2 exCm exProof.blinding) ∧
    exOracle 1 (openPoint exPairing exKeys.2 exCm exProof.blinding) ≠ 0 ∧
    verifyOpen exPairing multiExpDefault (exOracle 1) exKeys.2 exCm exProof (exShown 43) = .ok () ∧
    verifyOpen exPairing multiExpDefault (exOracle 2) exKeys.2 exCm exProof' (exShown 43) = .ok () := by
  refine ⟨?_, ?_, ?_, ?_, ?_, ?_, ?_, ?_, ?_⟩ <;> decide +kernel

/-- the extractor then gives the secret key and the attributes of the credential -/
example : extractAttrs (42 : ZMod 101) 43 (exShown 43) exProof.responseAttrs exProof'.responseAttrs = [41, 43, 47] ∧
    (exProof.responseSk - exProof'.responseSk) / (42 - 43) = 37 := by
  refine ⟨?_, ?_⟩ <;> decide +kernel

/-- the non-degeneracy hypotheses hold of the example pairing -/
example : (∀ g : ZMod 101, ∃ u : ZMod 101, g = u • (7 : ZMod 101)) ∧ exPairing.e 7 11 ≠ 0 ∧
    (∀ h, exPairing.e exCm.sigma1 h = 0 → h = 0) ∧ (0 : ZMod 101) ∉ exKeys.2.yy2 := by
  refine ⟨fun g => ⟨g * 29, ?_⟩, by decide +kernel, by decide +kernel, by decide +kernel⟩
  have : (29 : ZMod 101) * 7 = 1 := by decide
  rw [smul_eq_mul, mul_assoc, this, mul_one]

end Verif.AnonCreds
