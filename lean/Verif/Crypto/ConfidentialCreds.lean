import Verif.Crypto.AnonCreds
import Verif.Crypto.ElGamal

/-!
C41: confidential reveal of credential attributes (`crypto/src/confidential_anon_creds.rs`): the revealed attributes are
given as ElGamal ciphertexts together with a proof.
-/

namespace Verif.ConfidentialCreds

open Verif.Pippenger (sumOfProducts)
open Verif.Sigma (multiExpDefault dot_nil dot_nil_right dot_cons)
open Verif.AnonCreds
open Verif.ElGamal (Ct encrypt partialDecrypt keyGen)

variable {F G1 G2 Gt : Type} [Field F] [AddCommGroup G1] [Module F G1] [AddCommGroup G2] [Module F G2] [AddCommGroup Gt]
  [Module F Gt]

/-! ### Model -/

/-- models `CACPoK`, crypto/src/confidential_anon_creds.rs:104-111 -/
structure CACPoK (F G1 G2 : Type) where
  pok : PoK F G2
  cmCt : List (Ct G1)
  responseRands : List F
deriving DecidableEq

/-- models `append_ciphertext`, crypto/src/confidential_anon_creds.rs:92-95 -/
def appendCt (ct : Ct G1) : Tr G1 G2 := [.elem1 "ct.e1" ct.e1, .elem1 "ct.e2" ct.e2]

/-- models `cac_init` and what it calls, crypto/src/confidential_anon_creds.rs:63-99 -/
def cacInit (P : Pairing F G1 G2 Gt) (tr : Tr G1 G2) (ipk : IssuerPK G1 G2) (ek : G1) (cm : Sig G1) (cts : List (Ct G1)) :
    Tr G1 G2 :=
  tr ++ [.label "Confidential AC Reveal PoK", .elem1 "G1" P.base1, .elem2 "G2" P.base2] ++
    [.elem2 "ipk.G2" ipk.gen2, .elem1 "ipk.Z1" ipk.zz1, .elem2 "ipk.Z2" ipk.zz2, .elem2 "ipk.X2" ipk.xx2] ++
    ipk.yy2.map (.elem2 "ipk.Y2") ++ [.elem1 "encryption key" ek] ++
    [.elem1 "sigma1" cm.sigma1, .elem1 "sigma2" cm.sigma2] ++ cts.flatMap appendCt

/-- the proof commitments of a ciphertext, crypto/src/confidential_anon_creds.rs:246-247 and 302-305 -/
def appendCmCt (ct : Ct G1) : Tr G1 G2 := [.elem1 "proof_commitment" ct.e1, .elem1 "proof_commitment" ct.e2]

/-- the transcript at the challenge, crypto/src/confidential_anon_creds.rs:231-253 and 299-306 -/
def cacPoint (P : Pairing F G1 G2 Gt) (ipk : IssuerPK G1 G2) (ek : G1) (cm : Sig G1) (cts : List (Ct G1)) (m : Bytes)
    (cmCt : List (Ct G1)) (blinding : G2) : Tr G1 G2 :=
  cacInit P [.label "Confidential AC Reveal PoK New Instance"] ipk ek cm cts ++ [.bytes "Signature Message" m] ++
    cmCt.flatMap appendCmCt ++ [.elem2 "proof_commitment" blinding]

/-- models the first loop of `confidential_open_comm`, crypto/src/confidential_anon_creds.rs:151-159; `rho k` is the sample
for the `k`-th attribute -/
def encLoop (base ek : G1) (rho : Nat → F) : Nat → List F → List Bool → List (Ct G1) × List F
  | k, a :: as, b :: bs =>
    let (cts, rs) := encLoop base ek rho (k + 1) as bs
    if b then (encrypt base a (rho k) ek :: cts, rho k :: rs) else (cts, rs)
  | _, _, _ => ([], [])

/-- the values computed by the first loop of `confidential_prove_pok` -/
structure LoopOut (F G1 G2 : Type) where
  blinding : G2
  rAttrs : List F
  cmCts : List (Ct G1)
  rRands : List F

/-- models the first loop of `confidential_prove_pok`, crypto/src/confidential_anon_creds.rs:239-252 -/
def cacLoop (base ek : G1) (ra rr : Nat → F) : Nat → List G2 → List (Attr F) → G2 → LoopOut F G1 G2
  | k, y :: ys, a :: as, b =>
    let out := cacLoop base ek ra rr (k + 1) ys as (b + ra k • y)
    match a with
    | .revealed _ => ⟨out.blinding, ra k :: out.rAttrs, encrypt base (ra k) (rr k) ek :: out.cmCts, rr k :: out.rRands⟩
    | .hidden _ => ⟨out.blinding, ra k :: out.rAttrs, out.cmCts, out.rRands⟩
  | _, _, _, b => ⟨b, [], [], []⟩

/-- models the second loop of `confidential_prove_pok`, crypto/src/confidential_anon_creds.rs:257-270 -/
def cacResponses (c : F) : List (Attr F) → List F → List F
  | .hidden (some a) :: as, r :: rs => (c * a + r) :: cacResponses c as rs
  | .revealed a :: as, r :: rs => (c * a + r) :: cacResponses c as rs
  | .hidden none :: as, _ :: rs => cacResponses c as rs
  | _, _ => []

/-- the samples of `confidential_open_comm` and `confidential_prove_pok` -/
structure CACBlinds (F : Type) where
  rho : Nat → F
  rt : F
  rsk : F
  ra : Nat → F
  rr : Nat → F

/-- models `confidential_open_comm` and `confidential_prove_pok`, crypto/src/confidential_anon_creds.rs:134-185, 218-286 -/
def cacOpen (P : Pairing F G1 G2 Gt) (H : Tr G1 G2 → F) (bl : CACBlinds F) (usk : F) (cred : Credential F G1 G2) (cm : Sig G1)
    (rand : Randomizer F) (revealMap : List Bool) (ek : G1) (m : Bytes) : Res (List (Ct G1) × CACPoK F G1 G2) :=
  if cred.attrs.length ≠ revealMap.length then .err
  else
    let (cts, ctRands) := encLoop P.base1 ek bl.rho 0 cred.attrs revealMap
    let attrs := proverAttrs cred.attrs revealMap
    let out := cacLoop P.base1 ek bl.ra bl.rr 0 cred.ipk.yy2 attrs (bl.rt • cred.ipk.gen2 + bl.rsk • cred.ipk.zz2)
    let c := H (cacPoint P cred.ipk ek cm cts m out.cmCts out.blinding)
    .ok (cts, ⟨⟨out.blinding, c * rand.t + bl.rt, c * usk + bl.rsk, cacResponses c attrs out.rAttrs⟩, out.cmCts,
      List.zipWith (fun ctRand rRand => c * ctRand + rRand) ctRands out.rRands⟩)

/-- models `verify_ciphertext`, crypto/src/confidential_anon_creds.rs:332-350 -/
def verifyCiphertext [DecidableEq G1] (base ek : G1) (c : F) : List (Ct G1) → List (Ct G1) → List F → List F → Res Unit
  | ct :: cts, cm :: cms, a :: as, r :: rs =>
    let enc := encrypt base a r ek
    if enc.e1 ≠ c • ct.e1 + cm.e1 then .err
    else if enc.e2 ≠ c • ct.e2 + cm.e2 then .err
    else verifyCiphertext base ek c cts cms as rs
  | _, _, _, _ => .ok ()

/-- models `confidential_verify_pok`, crypto/src/confidential_anon_creds.rs:289-330 -/
def cacVerifyPok [DecidableEq G1] [DecidableEq Gt] (P : Pairing F G1 G2 Gt) (me : List F → List G2 → Res G2)
    (H : Tr G1 G2 → F) (ipk : IssuerPK G1 G2) (ek : G1) (cm : Sig G1) (cts : List (Ct G1)) (pok : CACPoK F G1 G2)
    (revealMap : List Bool) (m : Bytes) : Res Unit := do
  let c := H (cacPoint P ipk ek cm cts m pok.cmCt pok.pok.blinding)
  let attrResps := ((pok.pok.responseAttrs.zip revealMap).filter (fun p => p.2)).map (·.1)
  verifyCiphertext P.base1 ek c cts pok.cmCt attrResps pok.responseRands
  verifyPok P me ipk cm pok.pok (List.replicate ipk.yy2.length (.hidden none)) c

/-- models `confidential_verify_open`, crypto/src/confidential_anon_creds.rs:189-216 -/
def cacVerify [DecidableEq G1] [DecidableEq Gt] (P : Pairing F G1 G2 Gt) (me : List F → List G2 → Res G2)
    (H : Tr G1 G2 → F) (ipk : IssuerPK G1 G2) (ek : G1) (revealMap : List Bool) (cm : Sig G1) (cts : List (Ct G1))
    (pok : CACPoK F G1 G2) (m : Bytes) : Res Unit :=
  let n := cts.length
  let revealedCount := revealMap.foldl (fun sum b => if b then sum + 1 else sum) 0
  if revealMap.length ≠ ipk.yy2.length then .err
  else if n > ipk.yy2.length ∨ n ≠ pok.cmCt.length ∨ n ≠ pok.responseRands.length ∨ n ≠ revealedCount then .err
  else cacVerifyPok P me H ipk ek cm cts pok revealMap m

/-! ### Specification -/

/-- the ciphertexts encrypt the values, one by one -/
def Encrypts (base ek : G1) (cts : List (Ct G1)) (values : List F) : Prop :=
  List.Forall₂ (fun ct a => ∃ r : F, ct = encrypt base a r ek) cts values

/-- The extracted attributes: the quotients of the differences of the responses. -/
def extracted (n : Nat) (c c' : F) (pok pok' : PoK F G2) : List F :=
  extractAttrs c c' (List.replicate n (.hidden none)) pok.responseAttrs pok'.responseAttrs

/-! ### Lemmas -/

/-- the elements at the marked positions -/
def pick {A : Type} (l : List A) (m : List Bool) : List A := ((l.zip m).filter (fun p => p.2)).map (·.1)

theorem pick_true {A : Type} (a : A) (l : List A) (m : List Bool) : pick (a :: l) (true :: m) = a :: pick l m := by
  simp [pick]

theorem pick_false {A : Type} (a : A) (l : List A) (m : List Bool) : pick (a :: l) (false :: m) = pick l m := by
  simp [pick]

theorem foldl_count (m : List Bool) (k : Nat) :
    m.foldl (fun sum b => if b then sum + 1 else sum) k = k + m.count true := by
  induction m generalizing k with
  | nil => simp
  | cons b m ih => cases b <;> simp [ih] <;> omega

theorem pick_length {A : Type} (l : List A) (m : List Bool) (h : m.length ≤ l.length) : (pick l m).length = m.count true := by
  induction m generalizing l with
  | nil => simp [pick]
  | cons b m ih => cases l with
    | nil => simp at h
    | cons a l =>
      have := ih l (by simpa using h)
      cases b
      · rw [pick_false]; simpa using this
      · rw [pick_true]; simpa using this

theorem pick_extracted (c c' : F) (m : List Bool) (rs rs' : List F) (h : m.length ≤ rs.length) (h' : m.length ≤ rs'.length) :
    pick (extractAttrs c c' (List.replicate m.length (.hidden none)) rs rs') m =
      List.zipWith (fun z z' => (z - z') / (c - c')) (pick rs m) (pick rs' m) := by
  induction m generalizing rs rs' with
  | nil => simp [pick]
  | cons b m ih => cases rs with
    | nil => simp at h
    | cons r rs => cases rs' with
      | nil => simp at h'
      | cons r' rs' =>
        have := ih rs rs' (by simpa using h) (by simpa using h')
        simp only [List.length_cons, List.replicate_succ, extractAttrs]
        cases b
        · rw [pick_false, pick_false, pick_false]; exact this
        · rw [pick_true, pick_true, pick_true, List.zipWith_cons_cons, this]

theorem verifyCiphertext_not_panic [DecidableEq G1] (base ek : G1) (c : F) (cts cms : List (Ct G1)) (as rs : List F) :
    verifyCiphertext base ek c cts cms as rs = .ok () ∨ verifyCiphertext base ek c cts cms as rs = .err := by
  induction cts generalizing cms as rs with
  | nil => simp [verifyCiphertext]
  | cons ct cts ih => cases cms with
    | nil => simp [verifyCiphertext]
    | cons cm cms => cases as with
      | nil => simp [verifyCiphertext]
      | cons a as => cases rs with
        | nil => simp [verifyCiphertext]
        | cons r rs =>
          simp only [verifyCiphertext]
          split
          · simp
          · split
            · simp
            · exact ih cms as rs

theorem ciphertext_extract [DecidableEq G1] (base ek : G1) (c c' : F) (hc : c ≠ c') (cts cms : List (Ct G1))
    (as rs as' rs' : List F) (h : verifyCiphertext base ek c cts cms as rs = .ok ())
    (h' : verifyCiphertext base ek c' cts cms as' rs' = .ok ())
    (l1 : cms.length = cts.length) (l2 : as.length = cts.length) (l3 : rs.length = cts.length)
    (l4 : as'.length = cts.length) (l5 : rs'.length = cts.length) :
    Encrypts base ek cts (List.zipWith (fun z z' => (z - z') / (c - c')) as as') := by
  have hcc : c - c' ≠ 0 := sub_ne_zero.mpr hc
  induction cts generalizing cms as rs as' rs' with
  | nil =>
    obtain rfl := List.length_eq_zero_iff.mp l2
    exact List.Forall₂.nil
  | cons ct cts ih =>
    cases cms with
    | nil => simp at l1
    | cons cm cms => cases as with
      | nil => simp at l2
      | cons a as => cases rs with
        | nil => simp at l3
        | cons r rs => cases as' with
          | nil => simp at l4
          | cons a' as' => cases rs' with
            | nil => simp at l5
            | cons r' rs' =>
              simp only [verifyCiphertext] at h h'
              split at h
              · simp at h
              · rename_i h1
                split at h
                · simp at h
                · rename_i h2
                  split at h'
                  · simp at h'
                  · rename_i h1'
                    split at h'
                    · simp at h'
                    · rename_i h2'
                      simp only [ne_eq, not_not, encrypt] at h1 h2 h1' h2'
                      refine List.Forall₂.cons ⟨(r - r') / (c - c'), ?_⟩
                        (ih cms as rs as' rs' h h' (by simpa using l1) (by simpa using l2) (by simpa using l3)
                          (by simpa using l4) (by simpa using l5))
                      have e1 : (c - c') • ct.e1 = (c - c') • (((r - r') / (c - c')) • base) := by
                        rw [smul_smul, mul_div_cancel₀ _ hcc]
                        linear_combination (norm := module) h1' - h1
                      have e2 : (c - c') • ct.e2 =
                          (c - c') • (((a - a') / (c - c')) • base + ((r - r') / (c - c')) • ek) := by
                        rw [smul_add, smul_smul, smul_smul, mul_div_cancel₀ _ hcc, mul_div_cancel₀ _ hcc]
                        linear_combination (norm := module) h2' - h2
                      cases ct with
                      | mk x1 x2 =>
                        simp only [encrypt, Ct.mk.injEq]
                        exact ⟨smul_right_injective G1 hcc e1, smul_right_injective G1 hcc e2⟩

theorem attrScalars_hidden (c : F) (n : Nat) (rs s : List F)
    (h : attrScalars c (List.replicate n (.hidden none)) rs = .ok s) : n ≤ rs.length := by
  induction n generalizing rs s with
  | zero => simp
  | succ n ih =>
    cases rs with
    | nil => simp [List.replicate_succ, attrScalars] at h
    | cons r rs =>
      simp only [List.replicate_succ, attrScalars] at h
      obtain ⟨t, h1, _⟩ := Res.bind_eq_ok.mp h
      simpa using ih rs t h1

/-- what the verifier checks -/
theorem cacVerify_iff [DecidableEq G1] [DecidableEq Gt] (P : Pairing F G1 G2 Gt) (H : Tr G1 G2 → F) (ipk : IssuerPK G1 G2)
    (ek : G1) (revealMap : List Bool) (cm : Sig G1) (cts : List (Ct G1)) (pok : CACPoK F G1 G2) (m : Bytes) :
    cacVerify P multiExpDefault H ipk ek revealMap cm cts pok m = .ok () ↔
      revealMap.length = ipk.yy2.length ∧ cts.length = revealMap.count true ∧ pok.cmCt.length = cts.length ∧
      pok.responseRands.length = cts.length ∧
      verifyCiphertext P.base1 ek (H (cacPoint P ipk ek cm cts m pok.cmCt pok.pok.blinding)) cts pok.cmCt
        (pick pok.pok.responseAttrs revealMap) pok.responseRands = .ok () ∧
      verifyPok P multiExpDefault ipk cm pok.pok (List.replicate ipk.yy2.length (.hidden none))
        (H (cacPoint P ipk ek cm cts m pok.cmCt pok.pok.blinding)) = .ok () := by
  unfold cacVerify
  simp only [foldl_count, Nat.zero_add]
  have hcount : revealMap.count true ≤ revealMap.length := List.count_le_length
  by_cases h1 : revealMap.length = ipk.yy2.length
  · rw [if_neg (by simpa using h1)]
    by_cases h2 : cts.length > ipk.yy2.length ∨ cts.length ≠ pok.cmCt.length ∨ cts.length ≠ pok.responseRands.length ∨
      cts.length ≠ revealMap.count true
    · rw [if_pos h2]
      constructor
      · intro h; simp at h
      · rintro ⟨_, a, b, c, _⟩; omega
    · rw [if_neg h2]
      have h3 : cts.length = revealMap.count true ∧ pok.cmCt.length = cts.length ∧
        pok.responseRands.length = cts.length := by omega
      unfold cacVerifyPok
      simp only [h1, h3, true_and]
      change ((verifyCiphertext P.base1 ek _ cts pok.cmCt (pick pok.pok.responseAttrs revealMap) pok.responseRands) >>=
        fun _ => _) = _ ↔ _
      rcases verifyCiphertext_not_panic P.base1 ek (H (cacPoint P ipk ek cm cts m pok.cmCt pok.pok.blinding)) cts pok.cmCt
        (pick pok.pok.responseAttrs revealMap) pok.responseRands with h4 | h4
      · rw [h4]; simp
      · rw [h4]; simp
  · rw [if_pos (by simpa using h1)]
    constructor
    · intro h; simp at h
    · rintro ⟨a, _⟩; exact absurd a h1

/-- the honest prover's values -/
theorem cac_core [DecidableEq G1] (base ek : G1) (rho ra rr : Nat → F) (k : Nat) (ys : List G2) (vals : List F)
    (rev : List Bool) (b : G2) (h1 : vals.length = ys.length) (h2 : rev.length = ys.length) :
    let enc := encLoop base ek rho k vals rev
    let out := cacLoop base ek ra rr k ys (proverAttrs vals rev) b
    enc.1.length = rev.count true ∧ enc.2.length = rev.count true ∧ out.cmCts.length = rev.count true ∧
      out.rRands.length = rev.count true ∧
      ∀ c, ∃ s, attrScalars c (List.replicate ys.length (.hidden none))
          (cacResponses c (proverAttrs vals rev) out.rAttrs) = .ok s ∧
        sumOfProducts s ys = c • sumOfProducts vals ys + (out.blinding - b) ∧
        verifyCiphertext base ek c enc.1 out.cmCts (pick (cacResponses c (proverAttrs vals rev) out.rAttrs) rev)
          (List.zipWith (fun ctRand rRand => c * ctRand + rRand) enc.2 out.rRands) = .ok () := by
  induction ys generalizing k vals rev b with
  | nil =>
    obtain rfl := List.length_eq_zero_iff.mp h1
    obtain rfl := List.length_eq_zero_iff.mp h2
    refine ⟨rfl, rfl, rfl, rfl, fun c => ⟨[], rfl, ?_, rfl⟩⟩
    simp [dot_nil, cacLoop]
  | cons y ys ih =>
    cases vals with
    | nil => simp at h1
    | cons v vals => cases rev with
      | nil => simp at h2
      | cons r rev =>
        obtain ⟨i1, i2, i3, i4, i5⟩ := ih (k + 1) vals rev (b + ra k • y) (by simpa using h1) (by simpa using h2)
        cases r with
        | true =>
          have ep : proverAttrs (v :: vals) (true :: rev) = .revealed v :: proverAttrs vals rev := rfl
          refine ⟨?_, ?_, ?_, ?_, fun c => ?_⟩
          · simp [encLoop, i1]
          · simp [encLoop, i2]
          · rw [ep]; simp [cacLoop, i3]
          · rw [ep]; simp [cacLoop, i4]
          · obtain ⟨s, j1, j2, j3⟩ := i5 c
            rw [ep]
            simp only [encLoop, if_true, cacLoop, cacResponses, pick_true, List.zipWith_cons_cons, verifyCiphertext]
            refine ⟨(c * v + ra k) :: s, ?_, ?_, ?_⟩
            · simp only [List.length_cons, List.replicate_succ, attrScalars]
              rw [j1]; rfl
            · simp only [dot_cons, j2]; module
            · rw [if_neg (by simp only [encrypt, ne_eq, not_not]; module),
                if_neg (by simp only [encrypt, ne_eq, not_not]; module)]
              exact j3
        | false =>
          have ep : proverAttrs (v :: vals) (false :: rev) = .hidden (some v) :: proverAttrs vals rev := rfl
          refine ⟨?_, ?_, ?_, ?_, fun c => ?_⟩
          · simp [encLoop, i1]
          · simp [encLoop, i2]
          · rw [ep]; simp [cacLoop, i3]
          · rw [ep]; simp [cacLoop, i4]
          · obtain ⟨s, j1, j2, j3⟩ := i5 c
            rw [ep]
            simp only [encLoop, Bool.false_eq_true, if_false, cacLoop, cacResponses, pick_false]
            refine ⟨(c * v + ra k) :: s, ?_, ?_, ?_⟩
            · simp only [List.length_cons, List.replicate_succ, attrScalars]
              rw [j1]; rfl
            · simp only [dot_cons, j2]; module
            · exact j3

theorem encLoop_encrypts (base ek : G1) (rho : Nat → F) (k : Nat) (vals : List F) (rev : List Bool)
    (h : rev.length = vals.length) : Encrypts base ek (encLoop base ek rho k vals rev).1 (pick vals rev) := by
  induction vals generalizing k rev with
  | nil => simp [encLoop, pick, Encrypts]
  | cons v vals ih => cases rev with
    | nil => simp at h
    | cons r rev =>
      have := ih (k + 1) rev (by simpa using h)
      cases r
      · rw [pick_false]; simpa [encLoop] using this
      · rw [pick_true]; simp only [encLoop, if_true]
        exact List.Forall₂.cons ⟨rho k, rfl⟩ this

/-! ### C41 -/

/-- C41 (completeness): an issued credential, committed to with any randomizer, opened confidentially with any reveal map
and message, is accepted, and the ciphertexts encrypt exactly the revealed attributes.  Fewer than 796 attributes (see
C39). -/
theorem C41_complete_partial [DecidableEq G1] [DecidableEq Gt] (P : Pairing F G1 G2 Gt) (H : Tr G1 G2 → F) (x z : F)
    (gen1 : G1) (gen2 : G2) (y : List F) (sk u : F) (attrs : List F) (revealMap : List Bool) (rand : Randomizer F)
    (bl : CACBlinds F) (ek : G1) (m : Bytes)
    (hn : attrs.length = y.length) (hr : revealMap.length = attrs.length) (h8 : y.length < 796) :
    let keys := issuerKeygen x z gen1 gen2 y
    ∃ sig cts pok as, grant keys.1 (userKeygen keys.2 sk).2 attrs u = .ok sig ∧
      cacOpen P H bl sk ⟨sig, attrs, keys.2⟩ (comm sig rand) rand revealMap ek m = .ok (cts, pok) ∧
      cacVerify P multiExpDefault H keys.2 ek revealMap (comm sig rand) cts pok m = .ok () ∧
      getRevealed attrs revealMap = .ok as ∧ Encrypts P.base1 ek cts as := by
  intro keys
  obtain ⟨sig, hg⟩ : ∃ sig, grant keys.1 (userKeygen keys.2 sk).2 attrs u = .ok sig := by
    unfold grant
    rw [if_neg (by simp [keys, issuerKeygen, hn])]
    exact ⟨_, rfl⟩
  obtain ⟨_, hcom⟩ := commits_of_grant P x z gen1 gen2 y sk attrs u sig rand hg
  have hy : keys.2.yy2.length = y.length := by simp [keys, issuerKeygen]
  obtain ⟨i1, i2, i3, i4, i5⟩ := cac_core P.base1 ek bl.rho bl.ra bl.rr 0 keys.2.yy2 attrs revealMap
    (bl.rt • keys.2.gen2 + bl.rsk • keys.2.zz2) (by rw [hy, hn]) (by rw [hy, hr, hn])
  have henc := encLoop_encrypts P.base1 ek bl.rho 0 attrs revealMap hr
  generalize heo : encLoop P.base1 ek bl.rho 0 attrs revealMap = enc at *
  obtain ⟨cts, ctRands⟩ := enc
  generalize hout : cacLoop P.base1 ek bl.ra bl.rr 0 keys.2.yy2 (proverAttrs attrs revealMap)
    (bl.rt • keys.2.gen2 + bl.rsk • keys.2.zz2) = out at *
  generalize hcv : H (cacPoint P keys.2 ek (comm sig rand) cts m out.cmCts out.blinding) = c
  obtain ⟨s, j1, j2, j3⟩ := i5 c
  refine ⟨sig, cts, ⟨⟨out.blinding, c * rand.t + bl.rt, c * sk + bl.rsk,
    cacResponses c (proverAttrs attrs revealMap) out.rAttrs⟩, out.cmCts,
      List.zipWith (fun ctRand rRand => c * ctRand + rRand) ctRands out.rRands⟩, pick attrs revealMap, hg, ?_, ?_, ?_, henc⟩
  · unfold cacOpen
    rw [if_neg (by simp [hr])]
    simp only [heo, hout, hcv]
  · rw [cacVerify_iff]
    refine ⟨by rw [hy, hr, hn], i1, by rw [i1]; exact i3, ?_, ?_, ?_⟩
    · rw [List.length_zipWith]; simp only at i1 i2 i4; omega
    · simp only [hcv]
      exact j3
    · simp only [hcv]
      rw [verifyPok_iff]
      refine ⟨s, j1, by rw [List.length_replicate, hy]; exact h8, ?_⟩
      unfold Equation
      simp only [j2]
      unfold Commits at hcom
      rw [← hcom, ← P.smul_right]
      congr 1
      module
  · unfold getRevealed
    rw [if_neg (by simp [hr])]
    rfl

/-- C41 (special soundness): from two accepted proofs for the same commitment (first element not the identity) and
ciphertexts, with the same proof commitments and different challenges, one computes a valid signature of the issuer, and
the ciphertexts encrypt the attributes of that signature at the revealed positions. -/
theorem C41_special_sound_partial [DecidableEq G1] [DecidableEq Gt] (P : Pairing F G1 G2 Gt) (H H' : Tr G1 G2 → F)
    (ipk : IssuerPK G1 G2) (ek : G1) (revealMap : List Bool) (cm : Sig G1) (cts : List (Ct G1)) (pok pok' : CACPoK F G1 G2)
    (m : Bytes) (hcm : cm.sigma1 ≠ 0) (hb : pok'.pok.blinding = pok.pok.blinding) (hbc : pok'.cmCt = pok.cmCt)
    (hc : H (cacPoint P ipk ek cm cts m pok.cmCt pok.pok.blinding) ≠
      H' (cacPoint P ipk ek cm cts m pok.cmCt pok.pok.blinding))
    (h : cacVerify P multiExpDefault H ipk ek revealMap cm cts pok m = .ok ())
    (h' : cacVerify P multiExpDefault H' ipk ek revealMap cm cts pok' m = .ok ()) :
    let c := H (cacPoint P ipk ek cm cts m pok.cmCt pok.pok.blinding)
    let c' := H' (cacPoint P ipk ek cm cts m pok.cmCt pok.pok.blinding)
    let xs := extracted ipk.yy2.length c c' pok.pok pok'.pok
    ValidSig P ipk (extractSig cm pok.pok pok'.pok c c') ((pok.pok.responseSk - pok'.pok.responseSk) / (c - c')) xs ∧
      ∃ as, getRevealed xs revealMap = .ok as ∧ Encrypts P.base1 ek cts as := by
  intro c c' xs
  obtain ⟨a1, a2, a3, a4, a5, a6⟩ := (cacVerify_iff P H ipk ek revealMap cm cts pok m).mp h
  obtain ⟨b1, b2, b3, b4, b5, b6⟩ := (cacVerify_iff P H' ipk ek revealMap cm cts pok' m).mp h'
  rw [hb, hbc] at b5 b6
  obtain ⟨s, hs, _, he⟩ := (verifyPok_iff P ipk cm pok.pok _ _).mp a6
  obtain ⟨s', hs', _, he'⟩ := (verifyPok_iff P ipk cm pok'.pok _ _).mp b6
  have l1 := attrScalars_hidden _ _ _ _ hs
  have l1' := attrScalars_hidden _ _ _ _ hs'
  obtain ⟨i1, i2, i3⟩ := extractAttrs_spec c c' hc _ _ _ s s' ipk.yy2 hs hs'
  have hlen : xs.length = ipk.yy2.length := by
    change (extractAttrs c c' _ _ _).length = _
    rw [i1]; simp
  refine ⟨⟨hlen, hcm, equations_extract P ipk cm pok.pok pok'.pok s s' xs c c' hc hb he he' i3⟩, pick xs revealMap, ?_, ?_⟩
  · unfold getRevealed
    rw [if_neg (by rw [hlen]; simpa using a1)]
    rfl
  · have e : pick xs revealMap = List.zipWith (fun z z' => (z - z') / (c - c')) (pick pok.pok.responseAttrs revealMap)
        (pick pok'.pok.responseAttrs revealMap) := by
      change pick (extractAttrs c c' (List.replicate ipk.yy2.length (.hidden none)) _ _) revealMap = _
      rw [← a1]
      exact pick_extracted c c' revealMap _ _ (by omega) (by omega)
    rw [e]
    exact ciphertext_extract P.base1 ek c c' hc cts pok.cmCt _ _ _ _ a5 b5 a3
      (by rw [pick_length _ _ (by omega), a2]) a4 (by rw [pick_length _ _ (by omega), a2]) b4

/-- C41: ciphertexts that encrypt values decrypt to them, with the decryption key of the encryption key. -/
theorem C41_decrypts (base : G1) (dk : F) (cts : List (Ct G1)) (values : List F)
    (h : Encrypts base (keyGen base dk).2 cts values) :
    cts.map (fun ct => partialDecrypt ct dk) = values.map (fun a => a • base) := by
  induction h with
  | nil => rfl
  | cons hab _ ih =>
    obtain ⟨r, rfl⟩ := hab
    rw [List.map_cons, List.map_cons, ih]
    congr 1
    exact ElGamal.C37_decrypts base dk _ r

/-- C41: inconsistent lengths are refused, without panic, whatever the rest. -/
theorem C41_lengths_refused [DecidableEq G1] [DecidableEq Gt] (P : Pairing F G1 G2 Gt) (me : List F → List G2 → Res G2)
    (H : Tr G1 G2 → F) (ipk : IssuerPK G1 G2) (ek : G1) (revealMap : List Bool) (cm : Sig G1) (cts : List (Ct G1))
    (pok : CACPoK F G1 G2) (m : Bytes)
    (h : ¬ (revealMap.length = ipk.yy2.length ∧ cts.length = revealMap.count true ∧ pok.cmCt.length = cts.length ∧
      pok.responseRands.length = cts.length ∧ ipk.yy2.length ≤ pok.pok.responseAttrs.length)) :
    cacVerify P me H ipk ek revealMap cm cts pok m = .err := by
  unfold cacVerify
  simp only [foldl_count, Nat.zero_add]
  split
  · rfl
  · rename_i h1
    split
    · rfl
    · rename_i h2
      have h3 : pok.pok.responseAttrs.length < ipk.yy2.length := by
        by_contra hcon
        exact h ⟨not_not.mp h1, by omega, by omega, by omega, by omega⟩
      unfold cacVerifyPok
      rcases verifyCiphertext_not_panic P.base1 ek (H (cacPoint P ipk ek cm cts m pok.cmCt pok.pok.blinding)) cts pok.cmCt
        (pick pok.pok.responseAttrs revealMap) pok.responseRands with h4 | h4
      · change ((verifyCiphertext P.base1 ek _ cts pok.cmCt (pick pok.pok.responseAttrs revealMap) pok.responseRands) >>=
          fun _ => _) = _
        rw [h4]
        simp only [Res.bind_ok]
        unfold verifyPok
        rw [attrScalars_err _ _ _ (by simpa [hiddenCount] using h3)]
        rfl
      · change ((verifyCiphertext P.base1 ek _ cts pok.cmCt (pick pok.pok.responseAttrs revealMap) pok.responseRands) >>=
          fun _ => _) = _
        rw [h4]; rfl

/-- C41: the verifier does not panic for fewer than 796 attributes. -/
theorem C41_no_panic_partial [DecidableEq G1] [DecidableEq Gt] (P : Pairing F G1 G2 Gt) (H : Tr G1 G2 → F)
    (ipk : IssuerPK G1 G2) (ek : G1) (revealMap : List Bool) (cm : Sig G1) (cts : List (Ct G1)) (pok : CACPoK F G1 G2)
    (m : Bytes) (h8 : ipk.yy2.length < 796) :
    cacVerify P multiExpDefault H ipk ek revealMap cm cts pok m ≠ .panic := by
  unfold cacVerify
  simp only
  split
  · simp
  · split
    · simp
    · unfold cacVerifyPok
      change ((verifyCiphertext P.base1 ek _ cts pok.cmCt (pick pok.pok.responseAttrs revealMap) pok.responseRands) >>=
          fun _ => _) ≠ _
      generalize H (cacPoint P ipk ek cm cts m pok.cmCt pok.pok.blinding) = c
      rcases verifyCiphertext_not_panic P.base1 ek c cts pok.cmCt
        (pick pok.pok.responseAttrs revealMap) pok.responseRands with h4 | h4
      · rw [h4]
        simp only [Res.bind_ok]
        unfold verifyPok
        by_cases h5 : ipk.yy2.length ≤ pok.pok.responseAttrs.length
        · obtain ⟨s, hs⟩ := attrScalars_ok c (List.replicate ipk.yy2.length (.hidden none)) pok.pok.responseAttrs
            (by simpa [hiddenCount] using h5)
          have hl := attrScalars_length _ _ _ _ hs
          rw [hs]
          simp only [Res.bind_ok]
          rw [me_default _ _ (by simp [hl]; omega)]
          simp only [Res.bind_ok]
          split <;> simp
        · rw [attrScalars_err _ _ _ (by simpa [hiddenCount] using h5)]
          simp
      · rw [h4]; simp

/-- C41 does not hold as it stands: the identity commitment is accepted with honest ciphertexts of any values (here made
with the equations of the ciphertext proof only), under any issuer key and without a credential: for every list of
attributes and reveal map there is a proof. -/
theorem C41_identity_commitment_accepted [DecidableEq G1] [DecidableEq Gt] (P : Pairing F G1 G2 Gt) (H : Tr G1 G2 → F)
    (ipk : IssuerPK G1 G2) (attrs : List F) (revealMap : List Bool) (ek : G1) (m : Bytes) (bl : CACBlinds F)
    (hn : attrs.length = ipk.yy2.length) (hr : revealMap.length = attrs.length) (h8 : ipk.yy2.length < 796) :
    ∃ cts pok as, getRevealed attrs revealMap = .ok as ∧ Encrypts P.base1 ek cts as ∧
      cacVerify P multiExpDefault H ipk ek revealMap Sig.default cts pok m = .ok () := by
  obtain ⟨i1, i2, i3, i4, i5⟩ := cac_core P.base1 ek bl.rho bl.ra bl.rr 0 ipk.yy2 attrs revealMap
    (bl.rt • ipk.gen2 + bl.rsk • ipk.zz2) hn (by rw [hr, hn])
  have henc := encLoop_encrypts P.base1 ek bl.rho 0 attrs revealMap hr
  generalize heo : encLoop P.base1 ek bl.rho 0 attrs revealMap = enc at *
  obtain ⟨cts, ctRands⟩ := enc
  generalize hout : cacLoop P.base1 ek bl.ra bl.rr 0 ipk.yy2 (proverAttrs attrs revealMap)
    (bl.rt • ipk.gen2 + bl.rsk • ipk.zz2) = out at *
  generalize hcv : H (cacPoint P ipk ek Sig.default cts m out.cmCts out.blinding) = c
  obtain ⟨s, j1, j2, j3⟩ := i5 c
  refine ⟨cts, ⟨⟨out.blinding, 0, 0, cacResponses c (proverAttrs attrs revealMap) out.rAttrs⟩, out.cmCts,
      List.zipWith (fun ctRand rRand => c * ctRand + rRand) ctRands out.rRands⟩, pick attrs revealMap, ?_, henc, ?_⟩
  · unfold getRevealed
    rw [if_neg (by simp [hr])]
    rfl
  · rw [cacVerify_iff]
    refine ⟨by rw [hr, hn], i1, by rw [i1]; exact i3, ?_, ?_, ?_⟩
    · rw [List.length_zipWith]; simp only at i1 i2 i4; omega
    · simp only [hcv]
      exact j3
    · simp only [hcv]
      rw [verifyPok_iff]
      refine ⟨s, j1, by rw [List.length_replicate]; exact h8, ?_⟩
      simp [Equation, Sig.default, e_zero_left]

/-! ### Examples -/

def exBl : CACBlinds (ZMod 101) := ⟨fun k => 3 + k, 5, 7, fun k => 11 + k, fun k => 13 + 2 * k⟩

def exOpen (k : ZMod 101) : Res (List (Ct (ZMod 101)) × CACPoK (ZMod 101) (ZMod 101) (ZMod 101)) :=
  cacOpen exPairing (exOracle k) exBl 37 ⟨exSig, [41, 43, 47], exKeys.2⟩ exCm
  (⟨59, 61⟩ : Randomizer (ZMod 101)) [true, false, true] (9 : ZMod 101) []

def exCts : List (Ct (ZMod 101)) := [⟨3, 68⟩, ⟨5, 92⟩]

def exPok : CACPoK (ZMod 101) (ZMod 101) (ZMod 101) := ⟨⟨5, 68, 27, [55, 68, 93]⟩, [⟨13, 27⟩, ⟨17, 65⟩], [31, 47]⟩

def exPok' : CACPoK (ZMod 101) (ZMod 101) (ZMod 101) := ⟨⟨5, 28, 64, [96, 10, 39]⟩, [⟨13, 27⟩, ⟨17, 65⟩], [34, 52]⟩

/-- C41: an honest confidential opening is accepted, and refused with a tampered ciphertext or another reveal map -/
example : exOpen 1 = .ok (exCts, exPok) ∧
    cacVerify exPairing multiExpDefault (exOracle 1) exKeys.2 9 [true, false, true] exCm exCts exPok [] = .ok () ∧
    cacVerify exPairing multiExpDefault (exOracle 1) exKeys.2 9 [true, false, true] exCm [⟨3, 69⟩, ⟨5, 92⟩] exPok [] = .err ∧
    cacVerify exPairing multiExpDefault (exOracle 1) exKeys.2 9 [true, true, false] exCm exCts exPok [] = .err := by
  refine ⟨?_, ?_, ?_, ?_⟩ <;> decide +kernel

/-- the hypotheses of special soundness -/
example : exOpen 2 = .ok (exCts, exPok') ∧ exCm.sigma1 ≠ 0 ∧ exPok'.pok.blinding = exPok.pok.blinding ∧
    exPok'.cmCt = exPok.cmCt ∧
    exOracle 1 (cacPoint exPairing exKeys.2 9 exCm exCts [] exPok.cmCt exPok.pok.blinding) ≠
      exOracle 2 (cacPoint exPairing exKeys.2 9 exCm exCts [] exPok.cmCt exPok.pok.blinding) ∧
    cacVerify exPairing multiExpDefault (exOracle 2) exKeys.2 9 [true, false, true] exCm exCts exPok' [] = .ok () ∧
    extracted 3 (6 : ZMod 101) 7 exPok.pok exPok'.pok = [41, 43, 47] := by
  refine ⟨?_, ?_, ?_, ?_, ?_, ?_, ?_⟩ <;> decide +kernel

end Verif.ConfidentialCreds
