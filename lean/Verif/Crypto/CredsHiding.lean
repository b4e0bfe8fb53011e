import Verif.Crypto.AnonCreds
import Verif.Crypto.ConfidentialCreds

/-!
C91: presentations of anonymous credentials cannot be linked, not even by the issuer.

Every accepted presentation (with as many responses as there are hidden attributes, and a commitment whose first element is
not the identity) is made by exactly one choice of the holder's random values, whichever credential of the issuer with the
same shown attributes, and whichever user secret key, the holder has.  With uniform random values a presentation is therefore
uniform among the accepted ones, and two presentations of one credential are distributed as two presentations of different
ones.
-/

namespace Verif.AnonCreds

open Verif.Pippenger (sumOfProducts)
open Verif.Sigma (multiExpDefault dot_nil dot_nil_right dot_cons)

variable {F G1 G2 Gt : Type} [Field F] [AddCommGroup G1] [Module F G1] [AddCommGroup G2] [Module F G2] [AddCommGroup Gt]
  [Module F Gt]

/-! ### Specification -/

/-- The groups have prime order (every element is a multiple of any element that is not the identity) and the pairing does
not degenerate: the properties of BLS12-381. -/
structure Pairing.Prime (P : Pairing F G1 G2 Gt) : Prop where
  cyclic : ∀ g h : G1, g ≠ 0 → ∃ r : F, r • g = h
  nondeg : ∀ g h, P.e g h = 0 → g = 0 ∨ h = 0

/-- the random values of a holder who presents a credential: the two of the randomizer and those of the proof, one `gamma`
for each hidden attribute -/
@[ext] structure Samples (F : Type) where
  r : F
  t : F
  beta1 : F
  beta2 : F
  gamma : List F

/-- the randomizer, crypto/src/anon_creds.rs:166-173 -/
def Samples.rand (x : Samples F) : Randomizer F := ⟨x.r, x.t⟩

/-- the samples of the proof, drawn in turn -/
def Samples.blinds (x : Samples F) : Blinds F := ⟨x.beta1, x.beta2, fun k => x.gamma[k]?.getD 0⟩

/-! ### Lemmas -/

/-- the elements at the unmarked positions -/
def hid {A : Type} : List A → List Bool → List A
  | a :: l, b :: m => if b then hid l m else a :: hid l m
  | _, _ => []

theorem hid_length {A : Type} (l : List A) (m : List Bool) (h : m.length = l.length) : (hid l m).length = m.count false := by
  induction l generalizing m with
  | nil => cases m with
    | nil => rfl
    | cons => simp at h
  | cons a l ih => cases m with
    | nil => simp at h
    | cons b m =>
      have := ih m (by simpa using h)
      cases b <;> simp [hid, this]

/-- the samples from the `k`-th on -/
def samplesFrom (f : Nat → F) (k n : Nat) : List F := (List.range n).map (fun i => f (k + i))

omit [Field F] in
theorem samplesFrom_succ (f : Nat → F) (k n : Nat) : samplesFrom f k (n + 1) = f k :: samplesFrom f (k + 1) n := by
  unfold samplesFrom
  rw [List.range_succ_eq_map, List.map_cons, List.map_map]
  congr 1
  apply List.map_congr_left
  intro i _
  simp only [Function.comp]
  congr 1
  omega

omit [Field F] in
theorem samplesFrom_length (f : Nat → F) (k n : Nat) : (samplesFrom f k n).length = n := by simp [samplesFrom]

theorem samplesFrom_list (l : List F) : samplesFrom (fun k => l[k]?.getD 0) 0 l.length = l := by
  unfold samplesFrom
  apply List.ext_getElem?
  intro i
  by_cases h : i < l.length
  · simp [h]
  · simp [h]

theorem blindLoop_eq (gamma : Nat → F) (k : Nat) (ys : List G2) (vals : List F) (rev : List Bool) (b : G2)
    (h1 : vals.length = ys.length) (h2 : rev.length = ys.length) :
    blindLoop gamma k ys (proverAttrs vals rev) b =
      .ok (b + sumOfProducts (samplesFrom gamma k (rev.count false)) (hid ys rev), samplesFrom gamma k (rev.count false)) := by
  induction ys generalizing k vals rev b with
  | nil =>
    obtain rfl := List.length_eq_zero_iff.mp h1
    obtain rfl := List.length_eq_zero_iff.mp h2
    simp [blindLoop, hid, samplesFrom, dot_nil]
  | cons y ys ih =>
    cases vals with
    | nil => simp at h1
    | cons v vals =>
      cases rev with
      | nil => simp at h2
      | cons r rev =>
        cases r with
        | true =>
          have := ih k vals rev b (by simpa using h1) (by simpa using h2)
          simpa [proverAttrs, blindLoop, hid] using this
        | false =>
          have := ih (k + 1) vals rev (b + gamma k • y) (by simpa using h1) (by simpa using h2)
          simp only [proverAttrs, List.zipWith_cons_cons, Bool.false_eq_true, if_false, blindLoop, hid,
            List.count_cons_self, samplesFrom_succ, dot_cons] at this ⊢
          rw [this]
          simp only [Res.bind_ok, Res.pure_eq, Res.ok.injEq, Prod.mk.injEq, and_true]
          abel

theorem responses_eq (c : F) (vals : List F) (rev : List Bool) (gs : List F) (h : rev.length = vals.length)
    (hg : gs.length = rev.count false) :
    responses c (proverAttrs vals rev) gs = .ok (List.zipWith (fun a g => c * a + g) (hid vals rev) gs) := by
  induction vals generalizing rev gs with
  | nil =>
    obtain rfl := List.length_eq_zero_iff.mp h
    simp [proverAttrs, responses, hid]
  | cons v vals ih =>
    cases rev with
    | nil => simp at h
    | cons r rev =>
      cases r with
      | true =>
        have := ih rev gs (by simpa using h) (by simpa using hg)
        simpa [proverAttrs, responses, hid] using this
      | false =>
        cases gs with
        | nil => simp at hg
        | cons g gs =>
          have := ih rev gs (by simpa using h) (by simpa using hg)
          simp only [proverAttrs, List.zipWith_cons_cons, Bool.false_eq_true, if_false, responses, hid] at this ⊢
          rw [this]
          rfl

/-- what the verifier adds up for the attributes, for the prover that has the values -/
theorem attrScalars_dot (c : F) (vals : List F) (rev : List Bool) (ys : List G2) (rs s : List F)
    (h1 : vals.length = ys.length) (h2 : rev.length = ys.length) (hr : rs.length = rev.count false)
    (hs : attrScalars c (shown vals rev) rs = .ok s) :
    sumOfProducts s ys = c • sumOfProducts vals ys +
      sumOfProducts (List.zipWith (fun z a => z - c * a) rs (hid vals rev)) (hid ys rev) := by
  induction ys generalizing vals rev rs s with
  | nil =>
    obtain rfl := List.length_eq_zero_iff.mp h1
    obtain rfl := List.length_eq_zero_iff.mp h2
    simp [hid, dot_nil_right]
  | cons y ys ih =>
    cases vals with
    | nil => simp at h1
    | cons v vals =>
      cases rev with
      | nil => simp at h2
      | cons r rev =>
        cases r with
        | true =>
          simp only [shown, List.zipWith_cons_cons, if_true, attrScalars] at hs
          obtain ⟨s', h3, h4⟩ := Res.bind_eq_ok.mp hs
          simp only [Res.pure_eq, Res.ok.injEq] at h4
          subst h4
          have := ih vals rev rs s' (by simpa using h1) (by simpa using h2) (by simpa using hr) h3
          simp only [hid, if_true, dot_cons, this]
          module
        | false =>
          cases rs with
          | nil => simp at hr
          | cons z rs =>
            simp only [shown, List.zipWith_cons_cons, Bool.false_eq_true, if_false, attrScalars] at hs
            obtain ⟨s', h3, h4⟩ := Res.bind_eq_ok.mp hs
            simp only [Res.pure_eq, Res.ok.injEq] at h4
            subst h4
            have := ih vals rev rs s' (by simpa using h1) (by simpa using h2) (by simpa using hr) h3
            simp only [hid, Bool.false_eq_true, if_false, List.zipWith_cons_cons, dot_cons, this]
            module

theorem zip_blind (c : F) (z a : List F) (h : z.length = a.length) :
    List.zipWith (fun a g => c * a + g) a (List.zipWith (fun z a => z - c * a) z a) = z := by
  induction z generalizing a with
  | nil => cases a with
    | nil => rfl
    | cons => simp at h
  | cons x z ih => cases a with
    | nil => simp at h
    | cons y a =>
      simp only [List.zipWith_cons_cons, List.cons.injEq]
      exact ⟨by ring, ih a (by simpa using h)⟩

theorem zip_unblind (c : F) (g a : List F) (h : g.length = a.length) :
    List.zipWith (fun z a => z - c * a) (List.zipWith (fun a g => c * a + g) a g) a = g := by
  induction g generalizing a with
  | nil => cases a with
    | nil => rfl
    | cons => simp at h
  | cons x z ih => cases a with
    | nil => simp at h
    | cons y a =>
      simp only [List.zipWith_cons_cons, List.cons.injEq]
      exact ⟨by ring, ih a (by simpa using h)⟩

omit [AddCommGroup G1] [Module F G1] in
/-- the proof made from the values -/
theorem provePok_eq (H : Tr G1 G2 → F) (tr : Tr G1 G2) (b1 b2 : F) (gamma : List F) (usk : F) (ipk : IssuerPK G1 G2) (t : F)
    (vals : List F) (rev : List Bool) (h1 : vals.length = ipk.yy2.length) (h2 : rev.length = ipk.yy2.length)
    (hg : gamma.length = rev.count false) (r : F) :
    let B := b1 • ipk.gen2 + b2 • ipk.zz2 + sumOfProducts gamma (hid ipk.yy2 rev)
    provePok H tr (Samples.blinds ⟨r, t, b1, b2, gamma⟩) usk ipk t (proverAttrs vals rev) =
      .ok ⟨B, H (tr ++ [.elem2 "proof_commitment" B]) * t + b1, H (tr ++ [.elem2 "proof_commitment" B]) * usk + b2,
        List.zipWith (fun a g => H (tr ++ [.elem2 "proof_commitment" B]) * a + g) (hid vals rev) gamma⟩ := by
  intro B
  unfold provePok
  rw [blindLoop_eq _ _ _ _ _ _ h1 h2]
  simp only [Samples.blinds, Res.bind_ok]
  rw [← hg, samplesFrom_list, responses_eq _ _ _ _ (by omega) hg]
  rfl

/-- The proof of knowledge for a given commitment: every accepted proof is made by exactly one choice of the blindings. -/
theorem provePok_unique [DecidableEq Gt] (P : Pairing F G1 G2 Gt) (hP : P.Prime) (H : Tr G1 G2 → F) (tr : Tr G1 G2) (sk : F)
    (ipk : IssuerPK G1 G2) (cm : Sig G1) (hcm : cm.sigma1 ≠ 0) (t : F) (vals : List F) (rev : List Bool)
    (h1 : vals.length = ipk.yy2.length) (h2 : rev.length = ipk.yy2.length) (hc : Commits P ipk cm t sk vals) (π : PoK F G2)
    (hπ : π.responseAttrs.length = rev.count false)
    (hv : verifyPok P multiExpDefault ipk cm π (shown vals rev) (H (tr ++ [.elem2 "proof_commitment" π.blinding])) = .ok ())
    (r : F) (b1 b2 : F) (gamma : List F) (hg : gamma.length = rev.count false) :
    let c := H (tr ++ [.elem2 "proof_commitment" π.blinding])
    provePok H tr (Samples.blinds ⟨r, t, b1, b2, gamma⟩) sk ipk t (proverAttrs vals rev) = .ok π ↔
      b1 = π.responseT - c * t ∧ b2 = π.responseSk - c * sk ∧
        gamma = List.zipWith (fun z a => z - c * a) π.responseAttrs (hid vals rev) := by
  intro c
  have hlh := hid_length vals rev (by omega)
  rw [provePok_eq H tr b1 b2 gamma sk ipk t vals rev h1 h2 hg r]
  constructor
  · intro h
    obtain ⟨B, zt, zs, za⟩ := π
    simp only [Res.ok.injEq, PoK.mk.injEq] at h
    obtain ⟨e1, e2, e3, e4⟩ := h
    rw [e1] at e2 e3 e4
    refine ⟨?_, ?_, ?_⟩
    · rw [← e2]; simp only [c]; ring
    · rw [← e3]; simp only [c]; ring
    · rw [← e4]; exact (zip_unblind _ _ _ (by omega)).symm
  · rintro ⟨e1, e2, e3⟩
    rw [verifyPok_iff] at hv
    obtain ⟨s, hs, -, he⟩ := hv
    have hB : b1 • ipk.gen2 + b2 • ipk.zz2 + sumOfProducts gamma (hid ipk.yy2 rev) = π.blinding := by
      have hd := attrScalars_dot c vals rev ipk.yy2 π.responseAttrs s h1 h2 hπ hs
      unfold Equation at he
      unfold Commits at hc
      change _ = c • _ at he
      rw [← hc, ← P.smul_right] at he
      have hz := e_sub_right P cm.sigma1 _ _ |>.trans (sub_eq_zero.mpr he)
      rcases hP.nondeg _ _ hz with h0 | h0
      · exact absurd h0 hcm
      · rw [e1, e2, e3]
        change _ + c • _ + _ - _ + _ - _ = 0 at h0
        rw [hd] at h0
        linear_combination (norm := module) h0
    rw [hB]
    obtain ⟨B, zt, zs, za⟩ := π
    simp only [Res.ok.injEq, PoK.mk.injEq, true_and]
    refine ⟨?_, ?_, ?_⟩
    · rw [e1]; simp only [c]; ring
    · rw [e2]; simp only [c]; ring
    · rw [e3]; exact zip_blind _ _ _ (hπ.trans hlh.symm)

/-- a randomized signature is a commitment to what was signed -/
theorem commits_of_valid (P : Pairing F G1 G2 Gt) (ipk : IssuerPK G1 G2) (sig : Sig G1) (sk : F) (attrs : List F)
    (h : ValidSig P ipk sig sk attrs) (rand : Randomizer F) : Commits P ipk (comm sig rand) rand.t sk attrs := by
  obtain ⟨-, -, h⟩ := h
  unfold Commits comm
  simp only
  have e1 : ipk.xx2 + rand.t • ipk.gen2 + sk • ipk.zz2 + sumOfProducts attrs ipk.yy2 =
    (ipk.xx2 + sk • ipk.zz2 + sumOfProducts attrs ipk.yy2) + rand.t • ipk.gen2 := by abel
  rw [e1, P.smul_left, P.add_right, h, P.smul_left, P.add_left, P.smul_left, P.smul_right]

/-- any commitment is reached by exactly one randomizer -/
theorem comm_unique (P : Pairing F G1 G2 Gt) (hP : P.Prime) (sig : Sig G1) (hs : sig.sigma1 ≠ 0) (cm : Sig G1)
    (hcm : cm.sigma1 ≠ 0) : ∃ r t : F, ∀ r' t' : F, comm sig ⟨r', t'⟩ = cm ↔ r' = r ∧ t' = t := by
  obtain ⟨r, hr⟩ := hP.cyclic sig.sigma1 cm.sigma1 hs
  have hr0 : r ≠ 0 := by rintro rfl; rw [zero_smul] at hr; exact hcm hr.symm
  obtain ⟨t, ht⟩ := hP.cyclic sig.sigma1 (r⁻¹ • cm.sigma2 - sig.sigma2) hs
  have hcomm : comm sig ⟨r, t⟩ = cm := by
    cases cm
    simp only [comm, Sig.mk.injEq] at hr ht ⊢
    refine ⟨hr, ?_⟩
    rw [ht, add_sub_cancel, smul_smul, mul_inv_cancel₀ hr0, one_smul]
  refine ⟨r, t, fun r' t' => ⟨fun h => ?_, ?_⟩⟩
  · rw [← hcomm] at h
    simp only [comm, Sig.mk.injEq] at h
    obtain ⟨h1, h2⟩ := h
    have e := smul_left_injective F hs h1
    subst e
    refine ⟨rfl, ?_⟩
    exact smul_left_injective F hs (add_left_cancel (smul_right_injective G1 hr0 h2))
  · rintro ⟨rfl, rfl⟩
    exact hcomm

/-! ### C91 -/

/-- **C91.**  A presentation that the verifier accepts for the shown attributes, with one response for each hidden attribute
and a first element that is not the identity, is made from a credential by exactly one choice of the random values,
whichever the credential is: whatever its signature, its hidden attributes and the secret key of its holder. -/
theorem C91_presentation [DecidableEq Gt] (P : Pairing F G1 G2 Gt) (hP : P.Prime) (H : Tr G1 G2 → F) (sk : F)
    (cred : Credential F G1 G2) (hcred : ValidSig P cred.ipk cred.sig sk cred.attrs) (rev : List Bool)
    (hrev : rev.length = cred.attrs.length) (cm : Sig G1) (hcm : cm.sigma1 ≠ 0) (π : PoK F G2)
    (hπ : π.responseAttrs.length = rev.count false)
    (hv : verifyOpen P multiExpDefault H cred.ipk cm π (shown cred.attrs rev) = .ok ()) :
    ∃! x : Samples F, x.gamma.length = rev.count false ∧
      openCredential P H x.rand x.blinds sk cred rev = .ok (cm, π) := by
  have hl := hcred.1
  obtain ⟨r, t, hrt⟩ := comm_unique P hP cred.sig hcred.2.1 cm hcm
  have hun := fun x : Samples F => hrt x.r x.t
  have hcomm : comm cred.sig ⟨r, t⟩ = cm := (hrt r t).mpr ⟨rfl, rfl⟩
  have hc := commits_of_valid P cred.ipk cred.sig sk cred.attrs hcred ⟨r, t⟩
  rw [hcomm] at hc
  have key := provePok_unique P hP H (initPok P [.label "AC Reveal PoK Instance"] cred.ipk cm) sk cred.ipk cm hcm t cred.attrs rev
    hl (by omega) hc π hπ hv r
  have hopen : ∀ x : Samples F, openCredential P H x.rand x.blinds sk cred rev = .ok (cm, π) ↔
      x.r = r ∧ x.t = t ∧ provePok H (initPok P [.label "AC Reveal PoK Instance"] cred.ipk cm) x.blinds sk cred.ipk x.t
        (proverAttrs cred.attrs rev) = .ok π := by
    intro x
    unfold openCredential openComm
    dsimp only
    rw [if_neg (show ¬ cred.attrs.length ≠ rev.length by omega)]
    constructor
    · intro h
      obtain ⟨q, h1, h2⟩ := Res.bind_eq_ok.mp h
      simp only [Res.pure_eq, Res.ok.injEq, Prod.mk.injEq] at h2
      obtain ⟨h2, rfl⟩ := h2
      obtain ⟨e1, e2⟩ := (hun x).mp h2
      rw [h2] at h1
      exact ⟨e1, e2, h1⟩
    · rintro ⟨e1, e2, h⟩
      have h2 : comm cred.sig x.rand = cm := (hun x).mpr ⟨e1, e2⟩
      simp only [h2]
      change (provePok H _ x.blinds sk cred.ipk x.t _ >>= _) = _
      rw [h]
      rfl
  set c := H (initPok P [.label "AC Reveal PoK Instance"] cred.ipk cm ++ [.elem2 "proof_commitment" π.blinding]) with hcdef
  have hgl : (List.zipWith (fun z a => z - c * a) π.responseAttrs (hid cred.attrs rev)).length = rev.count false := by
    simp [hid_length cred.attrs rev hrev, hπ]
  refine ⟨⟨r, t, π.responseT - c * t, π.responseSk - c * sk,
    List.zipWith (fun z a => z - c * a) π.responseAttrs (hid cred.attrs rev)⟩, ⟨hgl, ?_⟩, ?_⟩
  · rw [hopen]
    exact ⟨rfl, rfl, (key _ _ _ hgl).mpr ⟨rfl, rfl, rfl⟩⟩
  · rintro ⟨r', t', b1, b2, gamma⟩ ⟨hg, ho⟩
    rw [hopen] at ho
    obtain ⟨e1, e2, h⟩ := ho
    simp only at e1 e2 hg
    subst e1 e2
    obtain ⟨e3, e4, e5⟩ := (key b1 b2 gamma hg).mp h
    rw [e3, e4, e5]

/-- **C91.**  Two credentials of one issuer that show the same attributes, of the same or of different holders: each
presentation is made by one choice of the random values from the one exactly if it is from the other. -/
theorem C91_unlinkable [DecidableEq Gt] (P : Pairing F G1 G2 Gt) (hP : P.Prime) (H : Tr G1 G2 → F) (sk sk' : F)
    (ipk : IssuerPK G1 G2) (sig sig' : Sig G1) (attrs attrs' : List F) (hcred : ValidSig P ipk sig sk attrs)
    (hcred' : ValidSig P ipk sig' sk' attrs') (rev : List Bool) (hrev : rev.length = ipk.yy2.length)
    (h8 : ipk.yy2.length < 796) (hshow : shown attrs rev = shown attrs' rev) (cm : Sig G1) (hcm : cm.sigma1 ≠ 0)
    (π : PoK F G2) :
    (∃! x : Samples F, x.gamma.length = rev.count false ∧
      openCredential P H x.rand x.blinds sk ⟨sig, attrs, ipk⟩ rev = .ok (cm, π)) ↔
    ∃! x : Samples F, x.gamma.length = rev.count false ∧
      openCredential P H x.rand x.blinds sk' ⟨sig', attrs', ipk⟩ rev = .ok (cm, π) := by
  have key : ∀ (sk sk' : F) (sig sig' : Sig G1) (attrs attrs' : List F), ValidSig P ipk sig sk attrs →
      ValidSig P ipk sig' sk' attrs' → shown attrs rev = shown attrs' rev →
      (∃ x : Samples F, x.gamma.length = rev.count false ∧
        openCredential P H x.rand x.blinds sk ⟨sig, attrs, ipk⟩ rev = .ok (cm, π)) →
      ∃! x : Samples F, x.gamma.length = rev.count false ∧
        openCredential P H x.rand x.blinds sk' ⟨sig', attrs', ipk⟩ rev = .ok (cm, π) := by
    intro sk sk' sig sig' attrs attrs' hcred hcred' hshow hx
    obtain ⟨⟨r, t, b1, b2, gamma⟩, hg, ho⟩ := hx
    have hl := hcred.1
    have hl' := hcred'.1
    unfold openCredential openComm at ho
    dsimp only at ho
    rw [if_neg (show ¬ attrs.length ≠ rev.length by omega)] at ho
    obtain ⟨q, e1, e2⟩ := Res.bind_eq_ok.mp ho
    simp only [Res.pure_eq, Res.ok.injEq, Prod.mk.injEq] at e2
    obtain ⟨rfl, rfl⟩ := e2
    obtain ⟨q', e3, e4⟩ := provePok_verifies P H (initPok P [.label "AC Reveal PoK Instance"] ipk (comm sig ⟨r, t⟩))
      (Samples.blinds ⟨r, t, b1, b2, gamma⟩) sk ipk (comm sig ⟨r, t⟩) t attrs rev hl (by omega) h8
      (commits_of_valid P ipk sig sk attrs hcred ⟨r, t⟩)
    have hqq : q' = q := by
      change provePok H _ _ sk ipk t _ = _ at e1
      exact Res.ok.inj (e3.symm.trans e1)
    subst hqq
    refine C91_presentation P hP H sk' ⟨sig', attrs', ipk⟩ hcred' rev (by simp only; omega) _ hcm q' ?_ ?_
    · rw [provePok_eq H _ b1 b2 gamma sk ipk t attrs rev hl (by omega) hg r] at e3
      obtain rfl := Res.ok.inj e3
      simp [hid_length attrs rev (by omega), hg]
    · simp only [← hshow]
      exact e4
  exact ⟨fun ⟨x, hx, _⟩ => key sk sk' sig sig' attrs attrs' hcred hcred' hshow ⟨x, hx⟩,
    fun ⟨x, hx, _⟩ => key sk' sk sig' sig attrs' attrs hcred' hcred hshow.symm ⟨x, hx⟩⟩

/-- **C91.**  The same for the commitment to a credential with its signature of knowledge on a message: it says nothing
about the credential at all. -/
theorem C91_commitment [DecidableEq Gt] (P : Pairing F G1 G2 Gt) (hP : P.Prime) (H : Tr G1 G2 → F) (sk : F)
    (cred : Credential F G1 G2) (hcred : ValidSig P cred.ipk cred.sig sk cred.attrs) (m : Bytes) (cm : Sig G1)
    (hcm : cm.sigma1 ≠ 0) (π : PoK F G2) (hπ : π.responseAttrs.length = cred.ipk.yy2.length)
    (hv : checkComm P multiExpDefault H cred.ipk cm π m = .ok ()) :
    ∃! x : Samples F, x.gamma.length = cred.ipk.yy2.length ∧
      commit P H x.blinds sk cred x.rand m = .ok (cm, π) := by
  have hl := hcred.1
  obtain ⟨r, t, hrt⟩ := comm_unique P hP cred.sig hcred.2.1 cm hcm
  have hcomm : comm cred.sig ⟨r, t⟩ = cm := (hrt r t).mpr ⟨rfl, rfl⟩
  have hc := commits_of_valid P cred.ipk cred.sig sk cred.attrs hcred ⟨r, t⟩
  rw [hcomm] at hc
  unfold checkComm commitPoint at hv
  rw [← hl, ← replicate_shown] at hv
  have hct : (List.replicate cred.attrs.length false).count false = cred.ipk.yy2.length := by simp [hl]
  have key := provePok_unique P hP H (initPok P [.label "AC Commit SoK Instance"] cred.ipk cm ++ [.bytes "Signature Message" m])
    sk cred.ipk cm hcm t cred.attrs (List.replicate cred.attrs.length false)
    hl (by simp [hl]) hc π (by rw [hct, hπ]) hv r
  rw [hct] at key
  rw [replicate_prover] at key
  have hopen : ∀ x : Samples F, commit P H x.blinds sk cred x.rand m = .ok (cm, π) ↔
      x.r = r ∧ x.t = t ∧ provePok H (initPok P [.label "AC Commit SoK Instance"] cred.ipk cm ++ [.bytes "Signature Message" m])
        x.blinds sk cred.ipk x.t (cred.attrs.map (fun a => .hidden (some a))) = .ok π := by
    intro x
    unfold commit
    constructor
    · intro h
      obtain ⟨q, h1, h2⟩ := Res.bind_eq_ok.mp h
      simp only [Res.pure_eq, Res.ok.injEq, Prod.mk.injEq] at h2
      obtain ⟨h2, rfl⟩ := h2
      obtain ⟨e1, e2⟩ := (hrt x.r x.t).mp h2
      rw [h2] at h1
      exact ⟨e1, e2, h1⟩
    · rintro ⟨e1, e2, h⟩
      have h2 : comm cred.sig x.rand = cm := (hrt x.r x.t).mpr ⟨e1, e2⟩
      simp only [h2]
      change (provePok H _ x.blinds sk cred.ipk x.t _ >>= _) = _
      rw [h]
      rfl
  set c := H (initPok P [.label "AC Commit SoK Instance"] cred.ipk cm ++ [.bytes "Signature Message" m] ++
    [.elem2 "proof_commitment" π.blinding]) with hcdef
  have hgl : (List.zipWith (fun z a => z - c * a) π.responseAttrs (hid cred.attrs (List.replicate cred.attrs.length false))).length =
      cred.ipk.yy2.length := by
    rw [List.length_zipWith, hid_length cred.attrs _ (List.length_replicate), hct, hπ, min_self]
  refine ⟨⟨r, t, π.responseT - c * t, π.responseSk - c * sk,
    List.zipWith (fun z a => z - c * a) π.responseAttrs (hid cred.attrs (List.replicate cred.attrs.length false))⟩, ⟨hgl, ?_⟩, ?_⟩
  · rw [hopen]
    exact ⟨rfl, rfl, (key _ _ _ hgl).mpr ⟨rfl, rfl, rfl⟩⟩
  · rintro ⟨r', t', b1, b2, gamma⟩ ⟨hg, ho⟩
    rw [hopen] at ho
    obtain ⟨e1, e2, h⟩ := ho
    simp only at e1 e2 hg
    subst e1 e2
    obtain ⟨e3, e4, e5⟩ := (key b1 b2 gamma hg).mp h
    rw [e3, e4, e5]

/-! ### Examples -/

theorem exPrime : exPairing.Prime where
  cyclic := fun g h hg => ⟨h * g⁻¹, by rw [smul_eq_mul, mul_assoc, inv_mul_cancel₀ hg, mul_one]⟩
  nondeg := fun _ _ h => mul_eq_zero.mp h

/-- Another credential of the same issuer: of the holder with the secret key 2, with other hidden attributes. -/
def exSig' : Sig (ZMod 101) := ⟨77, 87⟩

/-- The hypotheses of C91: two credentials with the same shown attribute, and an accepted presentation. -/
example : grant exKeys.1 (userKeygen exKeys.2 (2 : ZMod 101)).2 [8, 43, 9] (11 : ZMod 101) = .ok exSig' ∧
    ValidSig exPairing exKeys.2 exSig 37 [41, 43, 47] ∧ ValidSig exPairing exKeys.2 exSig' 2 [8, 43, 9] ∧
    shown ([41, 43, 47] : List (ZMod 101)) [false, true, false] = shown [8, 43, 9] [false, true, false] ∧
    exCm.sigma1 ≠ 0 ∧ exProof.responseAttrs.length = [false, true, false].count false ∧
    verifyOpen exPairing multiExpDefault (exOracle 1) exKeys.2 exCm exProof
      (shown [8, 43, 9] [false, true, false]) = .ok () := by
  refine ⟨?_, ⟨?_, ?_, ?_⟩, ⟨?_, ?_, ?_⟩, ?_, ?_, ?_, ?_⟩ <;> decide +kernel

/-- So the presentation made from the first credential could have been made from the second. -/
example : ∃! x : Samples (ZMod 101), x.gamma.length = [false, true, false].count false ∧
    openCredential exPairing (exOracle 1) x.rand x.blinds 2 ⟨exSig', [8, 43, 9], exKeys.2⟩ [false, true, false] =
      .ok (exCm, exProof) := by
  apply C91_presentation exPairing exPrime (exOracle 1) 2 ⟨exSig', [8, 43, 9], exKeys.2⟩
  · refine ⟨?_, ?_, ?_⟩ <;> decide +kernel
  all_goals decide +kernel

end Verif.AnonCreds

namespace Verif.ConfidentialCreds

open Verif.Pippenger (sumOfProducts)
open Verif.Sigma (multiExpDefault dot_nil dot_nil_right dot_cons)
open Verif.AnonCreds
open Verif.ElGamal (Ct encrypt)

variable {F G1 G2 Gt : Type} [Field F] [AddCommGroup G1] [Module F G1] [AddCommGroup G2] [Module F G2] [AddCommGroup Gt]
  [Module F Gt]

/-! ### Lemmas -/

theorem pick_zipWith {A B C : Type} (f : A → B → C) (l : List A) (l' : List B) (m : List Bool) (h : l.length = l'.length) :
    pick (List.zipWith f l l') m = List.zipWith f (pick l m) (pick l' m) := by
  induction l generalizing l' m with
  | nil => cases l' with
    | nil => simp [pick]
    | cons => simp at h
  | cons a l ih => cases l' with
    | nil => simp at h
    | cons b l' => cases m with
      | nil => simp [pick]
      | cons x m =>
        have := ih l' m (by simpa using h)
        cases x
        · simp only [List.zipWith_cons_cons, pick_false, this]
        · simp only [List.zipWith_cons_cons, pick_true, this]

theorem hid_replicate {A : Type} (l : List A) : hid l (List.replicate l.length false) = l := by
  induction l with
  | nil => rfl
  | cons a l ih => simp [List.replicate_succ, hid, ih]

/-- values put at the marked positions -/
def spread : List Bool → List F → List F
  | true :: m, x :: l => x :: spread m l
  | _ :: m, l => 0 :: spread m l
  | [], _ => []

theorem spread_length (m : List Bool) (l : List F) : (spread m l).length = m.length := by
  induction m generalizing l with
  | nil => simp [spread]
  | cons b m ih => cases b <;> cases l <;> simp [spread, ih]

theorem pick_spread (m : List Bool) (l : List F) (h : l.length = m.count true) : pick (spread m l) m = l := by
  induction m generalizing l with
  | nil =>
    obtain rfl : l = [] := by simpa using h
    simp [pick]
  | cons b m ih =>
    cases b with
    | false => rw [spread.eq_2 _ _ _ (by simp), pick_false]; exact ih l (by simpa using h)
    | true =>
      cases l with
      | nil => simp at h
      | cons x l => rw [spread, pick_true, ih l (by simpa using h)]

theorem encLoop_eq (base ek : G1) (rho : Nat → F) (k : Nat) (vals : List F) (rev : List Bool) (h : rev.length = vals.length) :
    encLoop base ek rho k vals rev =
      (List.zipWith (fun a r => encrypt base a r ek) (pick vals rev) (pick (samplesFrom rho k rev.length) rev),
        pick (samplesFrom rho k rev.length) rev) := by
  induction vals generalizing k rev with
  | nil =>
    obtain rfl := List.length_eq_zero_iff.mp h
    simp [encLoop, pick]
  | cons v vals ih => cases rev with
    | nil => simp at h
    | cons r rev =>
      have := ih (k + 1) rev (by simpa using h)
      simp only [encLoop, this, List.length_cons, samplesFrom_succ]
      cases r
      · simp only [pick_false, Bool.false_eq_true, if_false]
      · simp only [pick_true, if_true, List.zipWith_cons_cons]

omit [AddCommGroup Gt] [Module F Gt] in
theorem cacLoop_eq (base ek : G1) (ra rr : Nat → F) (k : Nat) (ys : List G2) (vals : List F) (rev : List Bool) (b : G2)
    (h1 : vals.length = ys.length) (h2 : rev.length = ys.length) :
    cacLoop base ek ra rr k ys (proverAttrs vals rev) b =
      ⟨b + sumOfProducts (samplesFrom ra k rev.length) ys, samplesFrom ra k rev.length,
        List.zipWith (fun a r => encrypt base a r ek) (pick (samplesFrom ra k rev.length) rev)
          (pick (samplesFrom rr k rev.length) rev),
        pick (samplesFrom rr k rev.length) rev⟩ := by
  induction ys generalizing k vals rev b with
  | nil =>
    obtain rfl := List.length_eq_zero_iff.mp h1
    obtain rfl := List.length_eq_zero_iff.mp h2
    simp [cacLoop, pick, samplesFrom, dot_nil]
  | cons y ys ih => cases vals with
    | nil => simp at h1
    | cons v vals => cases rev with
      | nil => simp at h2
      | cons r rev =>
        have := ih (k + 1) vals rev (b + ra k • y) (by simpa using h1) (by simpa using h2)
        cases r with
        | false =>
          have ep : proverAttrs (v :: vals) (false :: rev) = .hidden (some v) :: proverAttrs vals rev := rfl
          rw [ep]
          simp only [cacLoop, this, List.length_cons, samplesFrom_succ, pick_false, dot_cons, LoopOut.mk.injEq, and_true]
          abel
        | true =>
          have ep : proverAttrs (v :: vals) (true :: rev) = .revealed v :: proverAttrs vals rev := rfl
          rw [ep]
          simp only [cacLoop, this, List.length_cons, samplesFrom_succ, pick_true, dot_cons, LoopOut.mk.injEq, and_true,
            List.zipWith_cons_cons]
          abel

theorem cacResponses_eq (c : F) (vals : List F) (rev : List Bool) (rs : List F) (h : rev.length = vals.length)
    (h' : rs.length = vals.length) :
    cacResponses c (proverAttrs vals rev) rs = List.zipWith (fun a g => c * a + g) vals rs := by
  induction vals generalizing rev rs with
  | nil =>
    obtain rfl := List.length_eq_zero_iff.mp h
    simp [proverAttrs, cacResponses]
  | cons v vals ih => cases rev with
    | nil => simp at h
    | cons r rev => cases rs with
      | nil => simp at h'
      | cons z rs =>
        have := ih rev rs (by simpa using h) (by simpa using h')
        cases r
        · have ep : proverAttrs (v :: vals) (false :: rev) = .hidden (some v) :: proverAttrs vals rev := rfl
          simp only [ep, cacResponses, this, List.zipWith_cons_cons]
        · have ep : proverAttrs (v :: vals) (true :: rev) = .revealed v :: proverAttrs vals rev := rfl
          simp only [ep, cacResponses, this, List.zipWith_cons_cons]

/-- the commitments of the ciphertexts are determined by the responses -/
theorem verifyCiphertext_eq [DecidableEq G1] (base ek : G1) (c : F) (as rhos : List F) (cms : List (Ct G1)) (zs rs : List F)
    (l0 : rhos.length = as.length) (l1 : cms.length = as.length) (l2 : zs.length = as.length) (l3 : rs.length = as.length)
    (h : verifyCiphertext base ek c (List.zipWith (fun a r => encrypt base a r ek) as rhos) cms zs rs = .ok ()) :
    cms = List.zipWith (fun a r => encrypt base a r ek) (List.zipWith (fun z a => z - c * a) zs as)
      (List.zipWith (fun z a => z - c * a) rs rhos) := by
  induction as generalizing rhos cms zs rs with
  | nil =>
    obtain rfl := List.length_eq_zero_iff.mp l1
    simp
  | cons a as ih =>
    cases rhos with
    | nil => simp at l0
    | cons rho rhos => cases cms with
      | nil => simp at l1
      | cons cm cms => cases zs with
        | nil => simp at l2
        | cons z zs => cases rs with
          | nil => simp at l3
          | cons r rs =>
            simp only [List.zipWith_cons_cons, verifyCiphertext] at h ⊢
            split at h
            · simp at h
            · rename_i h1
              split at h
              · simp at h
              · rename_i h2
                rw [← ih rhos cms zs rs (by simpa using l0) (by simpa using l1) (by simpa using l2) (by simpa using l3) h]
                simp only [ne_eq, not_not, encrypt] at h1 h2
                congr 1
                cases cm
                simp only [encrypt, Ct.mk.injEq]
                constructor
                · linear_combination (norm := module) -h1
                · linear_combination (norm := module) -h2

omit [Field F] in
theorem samplesFrom_inj (f g : Nat → F) (n : Nat) (h : samplesFrom f 0 n = samplesFrom g 0 n) (k : Nat) (hk : k < n) :
    f k = g k := by
  have := congrArg (fun l => l[k]?) h
  simpa [samplesFrom, hk] using this

omit [Field F] in
theorem pick_samples_inj (f g : Nat → F) (m : List Bool) (j : Nat)
    (h : pick (samplesFrom f j m.length) m = pick (samplesFrom g j m.length) m) (k : Nat) (hk : m[k]? = some true) :
    f (j + k) = g (j + k) := by
  induction m generalizing j k with
  | nil => simp at hk
  | cons b m ih =>
    simp only [List.length_cons, samplesFrom_succ] at h
    cases b with
    | false =>
      simp only [pick_false] at h
      cases k with
      | zero => simp at hk
      | succ k =>
        have := ih (j + 1) h k (by simpa using hk)
        rwa [Nat.add_assoc, Nat.add_comm 1 k] at this
    | true =>
      simp only [pick_true, List.cons.injEq] at h
      cases k with
      | zero => exact h.1
      | succ k =>
        have := ih (j + 1) h.2 k (by simpa using hk)
        rwa [Nat.add_assoc, Nat.add_comm 1 k] at this

/-! ### C91 -/

/-- **C91.**  The proof that comes with confidentially revealed attributes: for a commitment to a credential and ciphertexts
of the revealed attributes, every accepted proof with a response for each attribute is made by exactly one choice of the
blindings that `confidential_prove_pok` draws (`ra k` for the `k`-th attribute, `rr k` for the `k`-th if it is revealed). -/
theorem C91_confidential [DecidableEq G1] [DecidableEq Gt] (P : Pairing F G1 G2 Gt) (hP : P.Prime) (H : Tr G1 G2 → F) (sk : F)
    (cred : Credential F G1 G2) (cm : Sig G1) (hcm : cm.sigma1 ≠ 0) (rand : Randomizer F)
    (hc : Commits P cred.ipk cm rand.t sk cred.attrs) (hl : cred.attrs.length = cred.ipk.yy2.length) (rev : List Bool)
    (ek : G1) (m : Bytes) (rho : Nat → F) (cts : List (Ct G1))
    (hcts : cts = (encLoop P.base1 ek rho 0 cred.attrs rev).1) (π : CACPoK F G1 G2)
    (hπ : π.pok.responseAttrs.length = cred.attrs.length)
    (hv : cacVerify P multiExpDefault H cred.ipk ek rev cm cts π m = .ok ()) :
    ∃ bl : CACBlinds F, bl.rho = rho ∧ cacOpen P H bl sk cred cm rand rev ek m = .ok (cts, π) ∧
      ∀ bl' : CACBlinds F, bl'.rho = rho → cacOpen P H bl' sk cred cm rand rev ek m = .ok (cts, π) →
        bl'.rt = bl.rt ∧ bl'.rsk = bl.rsk ∧ (∀ k < cred.attrs.length, bl'.ra k = bl.ra k) ∧
          ∀ k, rev[k]? = some true → bl'.rr k = bl.rr k := by
  rw [cacVerify_iff] at hv
  obtain ⟨hr, k1, k2, k3, k4, k5⟩ := hv
  have hrl : rev.length = cred.attrs.length := by omega
  rw [encLoop_eq _ _ _ _ _ _ hrl] at hcts
  have hopen : ∀ bl : CACBlinds F, bl.rho = rho → cacOpen P H bl sk cred cm rand rev ek m =
      (let B := bl.rt • cred.ipk.gen2 + bl.rsk • cred.ipk.zz2 + sumOfProducts (samplesFrom bl.ra 0 rev.length) cred.ipk.yy2
       let cms := List.zipWith (fun a r => encrypt P.base1 a r ek) (pick (samplesFrom bl.ra 0 rev.length) rev)
          (pick (samplesFrom bl.rr 0 rev.length) rev)
       let c := H (cacPoint P cred.ipk ek cm cts m cms B)
       .ok (cts, ⟨⟨B, c * rand.t + bl.rt, c * sk + bl.rsk,
         List.zipWith (fun a g => c * a + g) cred.attrs (samplesFrom bl.ra 0 rev.length)⟩, cms,
         List.zipWith (fun a g => c * a + g) (pick (samplesFrom rho 0 rev.length) rev)
          (pick (samplesFrom bl.rr 0 rev.length) rev)⟩)) := by
    intro bl hbl
    subst hbl
    unfold cacOpen
    rw [if_neg (show ¬ cred.attrs.length ≠ rev.length by omega), encLoop_eq _ _ _ _ _ _ hrl]
    dsimp only
    rw [cacLoop_eq _ _ _ _ _ _ _ _ _ hl hr]
    simp only [cacResponses_eq _ _ _ _ hrl (show (samplesFrom bl.ra 0 rev.length).length = _ by
      rw [samplesFrom_length, hrl]), hcts]
  set c := H (cacPoint P cred.ipk ek cm cts m π.cmCt π.pok.blinding) with hcdef
  set A := List.zipWith (fun z a => z - c * a) π.pok.responseAttrs cred.attrs with hA
  have hAl : A.length = rev.length := by rw [hA, List.length_zipWith, hπ, hrl, min_self]
  have hrhol : (pick (samplesFrom rho 0 rev.length) rev).length = rev.count true :=
    pick_length _ _ (by rw [samplesFrom_length])
  set R := List.zipWith (fun z a => z - c * a) π.responseRands (pick (samplesFrom rho 0 rev.length) rev) with hR
  have hRl : R.length = rev.count true := by rw [hR, List.length_zipWith, k3, k1, hrhol, min_self]
  -- the proof commitments
  rw [verifyPok_iff] at k5
  obtain ⟨s, hs, -, he⟩ := k5
  rw [← hl, ← replicate_shown] at hs
  have hd := attrScalars_dot c cred.attrs (List.replicate cred.attrs.length false) cred.ipk.yy2 π.pok.responseAttrs s hl
    (by rw [List.length_replicate, hl]) (by rw [hπ]; simp) hs
  rw [hid_replicate, show hid cred.ipk.yy2 (List.replicate cred.attrs.length false) = cred.ipk.yy2 by
    rw [hl, hid_replicate], ← hA] at hd
  have hB : (π.pok.responseT - c * rand.t) • cred.ipk.gen2 + (π.pok.responseSk - c * sk) • cred.ipk.zz2 +
      sumOfProducts A cred.ipk.yy2 = π.pok.blinding := by
    unfold Equation at he
    unfold Commits at hc
    rw [← hc, ← P.smul_right] at he
    have hz := e_sub_right P cm.sigma1 _ _ |>.trans (sub_eq_zero.mpr he)
    rcases hP.nondeg _ _ hz with h0 | h0
    · exact absurd h0 hcm
    · rw [hd] at h0
      linear_combination (norm := module) h0
  have hpa : (pick cred.attrs rev).length = rev.count true := pick_length _ _ (by omega)
  have hcms : List.zipWith (fun a r => encrypt P.base1 a r ek) (pick A rev) R = π.cmCt := by
    rw [hcts] at k4
    have := verifyCiphertext_eq P.base1 ek c (pick cred.attrs rev) (pick (samplesFrom rho 0 rev.length) rev) π.cmCt
      (pick π.pok.responseAttrs rev) π.responseRands (by rw [hrhol, hpa]) (by rw [k2, k1, hpa])
      (by rw [pick_length _ _ (by omega), hpa]) (by rw [k3, k1, hpa]) k4
    rw [this, hA, pick_zipWith _ _ _ _ hπ, hR]
  have hSA : samplesFrom (fun k => A[k]?.getD 0) 0 rev.length = A := by rw [← hAl]; exact samplesFrom_list A
  have hSR : pick (samplesFrom (fun k => (spread rev R)[k]?.getD 0) 0 rev.length) rev = R := by
    have : samplesFrom (fun k => (spread rev R)[k]?.getD 0) 0 rev.length = spread rev R := by
      conv_lhs => rw [← spread_length rev R]
      exact samplesFrom_list _
    rw [this, pick_spread _ _ hRl]
  refine ⟨⟨rho, π.pok.responseT - c * rand.t, π.pok.responseSk - c * sk, fun k => A[k]?.getD 0,
    fun k => (spread rev R)[k]?.getD 0⟩, rfl, ?_, ?_⟩
  · rw [hopen _ rfl]
    simp only [hSA, hSR, hB, hcms, ← hcdef]
    obtain ⟨⟨B, zt, zs, za⟩, cms, zr⟩ := π
    simp only [Res.ok.injEq, Prod.mk.injEq, true_and, CACPoK.mk.injEq, PoK.mk.injEq]
    refine ⟨⟨by ring, by ring, ?_⟩, ?_⟩
    · rw [hA]; exact zip_blind _ _ _ hπ
    · rw [hR]; exact zip_blind _ _ _ (k3.trans (k1.trans hrhol.symm))
  · intro bl' hbl' ho
    rw [hopen bl' hbl'] at ho
    have e := (Prod.mk.inj (Res.ok.inj ho)).2
    have e1 := congrArg (fun q => q.pok.blinding) e
    have e2 := congrArg (fun q => q.cmCt) e
    have e3 := congrArg (fun q => q.pok.responseT) e
    have e4 := congrArg (fun q => q.pok.responseSk) e
    have e5 := congrArg (fun q => q.pok.responseAttrs) e
    have e6 := congrArg (fun q => q.responseRands) e
    simp only at e1 e2 e3 e4 e5 e6
    rw [e1, e2, ← hcdef] at e3 e4 e5 e6
    refine ⟨?_, ?_, ?_, ?_⟩
    · rw [← e3]; ring
    · rw [← e4]; ring
    · have : samplesFrom bl'.ra 0 rev.length = A := by
        rw [hA, ← e5]
        exact (zip_unblind _ _ _ (by rw [samplesFrom_length, hrl])).symm
      intro k hk
      exact samplesFrom_inj _ _ rev.length (this.trans hSA.symm) k (by omega)
    · have : pick (samplesFrom bl'.rr 0 rev.length) rev = R := by
        rw [hR, ← e6]
        refine (zip_unblind _ _ _ ?_).symm
        rw [hrhol, pick_length _ _ (by rw [samplesFrom_length])]
      intro k hk
      have := pick_samples_inj bl'.rr (fun k => (spread rev R)[k]?.getD 0) rev 0 (this.trans hSR.symm) k hk
      simpa using this

/-- The hypotheses: an accepted confidential opening. -/
example : exCm.sigma1 ≠ 0 ∧ Commits exPairing exKeys.2 exCm 61 37 [41, 43, 47] ∧
    exCts = (encLoop exPairing.base1 9 exBl.rho 0 [41, 43, 47] [true, false, true]).1 ∧
    exPok.pok.responseAttrs.length = 3 ∧
    cacVerify exPairing multiExpDefault (exOracle 1) exKeys.2 9 [true, false, true] exCm exCts exPok [] = .ok () := by
  refine ⟨?_, ?_, ?_, ?_, ?_⟩
  · decide +kernel
  · unfold Commits; decide +kernel
  all_goals decide +kernel

/-- **C91.**  The ciphertexts of the revealed attributes are made with independent random values: their first elements are any
given group elements for exactly one choice of the values drawn for the revealed attributes. -/
theorem C91_ciphertexts (base ek : G1) (hb : Function.Bijective (fun r : F => r • base)) (attrs : List F) (rev : List Bool)
    (h : rev.length = attrs.length) (targets : List G1) (ht : targets.length = rev.count true) :
    ∃ rho : Nat → F, (encLoop base ek rho 0 attrs rev).1.map (·.e1) = targets ∧
      ∀ rho' : Nat → F, (encLoop base ek rho' 0 attrs rev).1.map (·.e1) = targets →
        ∀ k, rev[k]? = some true → rho' k = rho k := by
  have key : ∀ rho : Nat → F, (encLoop base ek rho 0 attrs rev).1.map (·.e1) =
      (pick (samplesFrom rho 0 rev.length) rev).map (fun r => r • base) := by
    intro rho
    rw [encLoop_eq _ _ _ _ _ _ h]
    have hl : (pick attrs rev).length = (pick (samplesFrom rho 0 rev.length) rev).length := by
      rw [pick_length _ _ (by omega), pick_length _ _ (by rw [samplesFrom_length])]
    generalize pick attrs rev = as at hl
    generalize pick (samplesFrom rho 0 rev.length) rev = rs at hl
    simp only
    induction as generalizing rs with
    | nil =>
      obtain rfl := List.length_eq_zero_iff.mp hl.symm
      rfl
    | cons a as ih => cases rs with
      | nil => simp at hl
      | cons r rs =>
        rw [List.zipWith_cons_cons, List.map_cons, ih rs (by simpa using hl)]
        rfl
  obtain ⟨L, hL⟩ : ∃ L : List F, L.map (fun r => r • base) = targets := by
    clear ht
    induction targets with
    | nil => exact ⟨[], rfl⟩
    | cons g gs ih =>
      obtain ⟨L, rfl⟩ := ih
      obtain ⟨r, rfl⟩ := hb.2 g
      exact ⟨r :: L, rfl⟩
  have hLl : L.length = rev.count true := by rw [← ht, ← hL, List.length_map]
  have hS : pick (samplesFrom (fun k => (spread rev L)[k]?.getD 0) 0 rev.length) rev = L := by
    have : samplesFrom (fun k => (spread rev L)[k]?.getD 0) 0 rev.length = spread rev L := by
      conv_lhs => rw [← spread_length rev L]
      exact samplesFrom_list _
    rw [this, pick_spread _ _ hLl]
  refine ⟨fun k => (spread rev L)[k]?.getD 0, by rw [key, hS, hL], fun rho' h' k hk => ?_⟩
  rw [key, ← hL] at h'
  have e := List.map_injective_iff.mpr hb.1 h'
  have := pick_samples_inj rho' (fun k => (spread rev L)[k]?.getD 0) rev 0 (e.trans hS.symm) k hk
  simpa using this

/-- The hypotheses: the generator of the examples, three attributes of which two are revealed. -/
example : Function.Bijective (fun r : ZMod 101 => r • exPairing.base1) ∧
    ([5, 6] : List (ZMod 101)).length = [true, false, true].count true := by
  refine ⟨⟨fun a b h => ?_, fun g => ⟨g, ?_⟩⟩, by decide⟩
  · simpa [exPairing] using h
  · simp [exPairing]

end Verif.ConfidentialCreds
