import Verif.Snark.Complete
import Verif.Algebra.MsmUnsafeProps

/-!
C69 and C71: what becomes of the proof system when the multi-exponentiation is the one in the code, which is not right for all
inputs.  `checked` stops at a wrong multi-exponentiation; a run that gets through has met none.
-/

namespace Verif.Snark

open Verif.Poly Verif.Plonk Verif.Msm
open Verif.AnonCreds (Pairing)

/-! ### The function of the code as the parameter of the commitments -/

section code
variable {F K : Type} [Field F] [DecidableEq F] [Field K] [ScalarRepr K] {W : WeierstrassCurve.Affine F}

/-- models `batch_normalization_into_affine` on one point, bls12_381.rs:443-445; the point at infinity is `(0, 1)` with the
flag set (arkworks) -/
def normalize : W.Point → Aff F
  | .zero => ⟨0, 1, true⟩
  | .some x y _ => ⟨x, y, false⟩

omit [DecidableEq F] in
theorem normalize_good (p : W.Point) : Good W (normalize p) ∧ point W (normalize p) = p := by
  cases p with
  | zero => exact ⟨.inl rfl, by rw [point, normalize, if_pos rfl]; rfl⟩
  | some x y h => exact ⟨.inr h, by rw [point, normalize, if_neg (by simp), dif_pos h]⟩

/-- models `multi_exp_unsafe`, bls12_381.rs:436-447; `none` is a panic -/
def codeMsm (addMixed : W.Point → Aff F → W.Point) (bits : Nat) (s : List K) (g : List W.Point) : Res W.Point :=
  Res.unwrap (msmUnsafe addMixed bits (g.map normalize) (s.map ScalarRepr.val))

variable [Module K W.Point]

/-- C69: the function in the code is the linear combination when no bucket leads to an exceptional pair of neighbours -/
theorem C69_code_msm_partial (h1 : W.a₁ = 0) (h2 : W.a₂ = 0) (h3 : W.a₃ = 0) (add : W.Point → Aff F → W.Point) (hadd : MixedOk W add)
    (bits : Nat) (hbits : 0 < bits) (hord : ScalarRepr.order K ≤ 2 ^ bits) (s : List K) (g : List W.Point) (hlen : g.length ≤ 2 ^ 64)
    (hg : let es := nonzero (s.map ScalarRepr.val) g
      ∀ j < windows bits (windowBits es.length), ∀ d < 2 ^ windowBits es.length,
        Generic (bucket (windowBits es.length) (j * windowBits es.length) d es)) :
    codeMsm add bits s g = .ok (List.zipWith (fun a b => a • b) s g).sum := by
  have hnz : nonzero (s.map ScalarRepr.val) (g.map (normalize (W := W))) =
      (nonzero (s.map ScalarRepr.val) g).map (fun e => (e.1, normalize e.2)) := by
    unfold nonzero
    rw [List.zip_map_right, List.filter_map]
    rfl
  have hid : ∀ l : List W.Point, (l.map normalize).map (point W) = l := by
    intro l
    rw [List.map_map]
    conv_rhs => rw [← List.map_id l]
    exact List.map_congr_left fun p _ => (normalize_good p).2
  have hsum : sumOfProducts W (s.map ScalarRepr.val) (g.map normalize) = (List.zipWith (fun a b => a • b) s g).sum := by
    unfold sumOfProducts
    rw [List.zipWith_map]
    refine congrArg List.sum ?_
    clear hg hnz hlen
    induction s generalizing g with
    | nil => rfl
    | cons a s ih =>
      cases g with
      | nil => rfl
      | cons p g =>
        rw [List.zipWith_cons_cons, List.zipWith_cons_cons, ih, (normalize_good p).2]
        congr 1
        conv_rhs => rw [← ScalarRepr.cast_val a, Nat.cast_smul_eq_nsmul]
  unfold codeMsm
  rw [C69_msm_partial h1 h2 h3 add hadd bits hbits _ _ ?_ ?_ (by simpa using hlen) ?_, hsum]
  · rfl
  · intro a ha
    obtain ⟨p, _, rfl⟩ := List.mem_map.mp ha
    exact (normalize_good p).1
  · intro k hk
    obtain ⟨a, _, rfl⟩ := List.mem_map.mp hk
    exact lt_of_lt_of_le (ScalarRepr.val_lt a) hord
  · rw [hnz, List.length_map]
    intro j hj d hd
    rw [bucket_map, hid]
    exact hg j hj d hd

/-- C69, small inputs: up to sixteen bases never lead to an exceptional pair -/
theorem C69_code_msm_small (h1 : W.a₁ = 0) (h2 : W.a₂ = 0) (h3 : W.a₃ = 0) (add : W.Point → Aff F → W.Point) (hadd : MixedOk W add)
    (bits : Nat) (hbits : 0 < bits) (hord : ScalarRepr.order K ≤ 2 ^ bits) (s : List K) (g : List W.Point) (hlen : g.length ≤ 16) :
    codeMsm add bits s g = .ok (List.zipWith (fun a b => a • b) s g).sum := by
  refine C69_code_msm_partial h1 h2 h3 add hadd bits hbits hord s g (le_trans hlen (by norm_num)) fun _ _ _ _ => generic_of_small _ ?_
  rw [bucket, List.length_map]
  refine le_trans (List.length_filter_le _ _) (le_trans ?_ hlen)
  unfold nonzero
  refine le_trans (List.length_filter_le _ _) ?_
  rw [List.length_zip]
  exact min_le_right _ _

end code

/-! ### Runs that meet no wrong multi-exponentiation -/

variable {F G1 G2 Gt : Type} [Field F] [DecidableEq F] [AddCommGroup G1] [Module F G1] [AddCommGroup G2] [Module F G2]
  [AddCommGroup Gt] [Module F Gt] [DecidableEq Gt]

/-- what succeeds with `a` succeeds with `b` with the same result -/
def Below {α : Type} (a b : Res α) : Prop := ∀ x, a = .ok x → b = .ok x

open Classical in
/-- a multi-exponentiation that stops when the given one is not the linear combination -/
noncomputable def checked (msm : List F → List G1 → Res G1) (s : List F) (g : List G1) : Res G1 :=
  if msm s g = .ok (List.zipWith (fun a b => a • b) s g).sum then msm s g else .panic

/-- the linear combination -/
def exact (s : List F) (g : List G1) : Res G1 := .ok (List.zipWith (fun a b => a • b) s g).sum

omit [DecidableEq F] in
theorem checked_below (msm : List F → List G1 → Res G1) (s : List F) (g : List G1) : Below (checked msm s g) (msm s g) := by
  intro x h
  unfold checked at h
  split at h
  · exact h
  · simp at h

omit [DecidableEq F] in
theorem checked_exact (msm : List F → List G1 → Res G1) (s : List F) (g : List G1) : Below (checked msm s g) (exact s g) := by
  intro x h
  unfold checked at h
  split at h
  · rename_i h'
    rw [h'] at h
    exact h
  · simp at h

theorem Below.refl {α : Type} (a : Res α) : Below a a := fun _ h => h

theorem Below.bind {α β : Type} {a b : Res α} {f g : α → Res β} (h : Below a b) (hf : ∀ x, Below (f x) (g x)) :
    Below (a >>= f) (b >>= g) := by
  intro y hy
  obtain ⟨x, hx, hfx⟩ := Res.bind_eq_ok.mp hy
  rw [h x hx, Res.bind_ok]
  exact hf x y hfx

theorem Below.mapM {α β : Type} {f g : α → Res β} (hf : ∀ x, Below (f x) (g x)) (l : List α) : Below (l.mapM f) (l.mapM g) := by
  induction l with
  | nil => exact Below.refl _
  | cons x l ih =>
    rw [List.mapM_cons, List.mapM_cons]
    exact Below.bind (hf x) fun _ => Below.bind ih fun _ => Below.refl _

section mono
set_option linter.unusedSectionVars false
variable {m m' : List F → List G1 → Res G1} (hmm : ∀ s g, Below (m s g) (m' s g))
include hmm

omit [Field F] [DecidableEq F] [AddCommGroup G1] [Module F G1] [AddCommGroup G2] [Module F G2] in
theorem commit_mono (pp : Params G1 G2) (p : List F) : Below (commit m pp p) (commit m' pp p) := by
  unfold commit
  split
  · exact Below.refl _
  · exact hmm _ _

theorem commitColumn_mono (pp : Params G1 G2) (lag : Option (Params G1 G2)) (v c : List F) :
    Below (commitColumn m pp lag v c) (commitColumn m' pp lag v c) := by
  unfold commitColumn
  split
  · exact commit_mono hmm _ _
  · exact commit_mono hmm _ _

theorem indexColumn_mono (pp : Params G1 G2) (lag : Option (Params G1 G2)) (root rootM k1 : F) (n k : Nat) (v : List F) :
    Below (indexColumn m pp lag root rootM k1 n k v) (indexColumn m' pp lag root rootM k1 n k v) := by
  unfold indexColumn
  exact Below.bind (Below.refl _) fun _ => Below.bind (Below.refl _) fun _ => Below.bind (commitColumn_mono hmm _ _ _ _) fun _ =>
    Below.refl _

theorem indexer_mono (pp : Params G1 G2) (lag : Option (Params G1 G2)) (rootOf : Nat → Res (Option F)) (k : List F) (cs : CS F) :
    Below (indexer m pp lag rootOf k cs) (indexer m' pp lag rootOf k cs) := by
  unfold indexer
  dsimp only
  split
  · exact Below.refl _
  split
  · exact Below.refl _
  refine Below.bind (Below.refl _) fun _ => Below.bind (Below.refl _) fun _ => Below.bind (Below.refl _) fun _ =>
    Below.bind (Below.refl _) fun _ => Below.bind (Below.refl _) fun _ => Below.bind (Below.refl _) fun _ =>
    Below.bind (Below.mapM (fun _ => indexColumn_mono hmm _ _ _ _ _ _ _ _) _) fun _ =>
    Below.bind (Below.mapM (fun _ => indexColumn_mono hmm _ _ _ _ _ _ _ _) _) fun _ =>
    Below.bind (Below.refl _) fun _ => Below.bind (Below.refl _) fun _ => Below.bind (Below.refl _) fun _ =>
    Below.bind (Below.refl _) fun _ => Below.bind (Below.refl _) fun _ => Below.bind (Below.refl _) fun _ =>
    Below.bind (indexColumn_mono hmm _ _ _ _ _ _ _ _) fun _ => Below.refl _

theorem commitHidden_mono (pp : Params G1 G2) (lag : Option (Params G1 G2)) (root : F) (n : Nat) (v b : List F) :
    Below (commitHidden m pp lag root n v b) (commitHidden m' pp lag root n v b) := by
  unfold commitHidden
  refine Below.bind (Below.refl _) fun _ => Below.bind (Below.refl _) fun _ => ?_
  split
  · exact Below.bind (commit_mono hmm _ _) fun _ => Below.refl _
  · exact Below.bind (commit_mono hmm _ _) fun _ => Below.refl _

theorem splitT_mono (pp : Params G1 G2) (t : List F) (n : Nat) (rands : List F) : Below (splitT m pp t n rands) (splitT m' pp t n rands) := by
  unfold splitT
  have : ∀ (parts i : Nat) (rs : List F) (prev : F), Below (splitLoop m pp t parts n i rs prev) (splitLoop m' pp t parts n i rs prev) := by
    intro parts i rs
    induction rs generalizing i with
    | nil => intro prev; unfold splitLoop; exact Below.refl _
    | cons r rs ih =>
      intro prev
      unfold splitLoop
      dsimp only
      split
      · exact Below.bind (Below.refl _) fun _ => Below.bind (commit_mono (G2 := G2) hmm pp _) fun _ => Below.bind (ih _ _) fun _ => Below.refl _
      · exact Below.bind (Below.refl _) fun _ => Below.bind (commit_mono (G2 := G2) hmm pp _) fun _ => Below.bind (ih _ _) fun _ => Below.refl _
  exact this _ _ _ _

theorem prove_mono (pp : Params G1 G2) (p : List F) (x : F) (bound : Nat) : Below (prove m pp p x bound) (prove m' pp p x bound) := by
  unfold prove
  dsimp only
  split
  · exact Below.refl _
  refine Below.bind (Below.refl _) fun _ => Below.bind (Below.refl _) fun z => ?_
  cases z
  · exact Below.refl _
  · simp only [if_true]
    intro y hy
    have : ∀ {r : Res G1}, unwrapRes r = .ok y ↔ r = .ok y := by
      intro r; cases r <;> simp [unwrapRes]
    rw [this] at hy ⊢
    exact commit_mono hmm _ _ _ hy

theorem batchProve_mono (H : Tr F G1 → Nat → F) (pp : Params G1 G2) (tr : Tr F G1) (ps : List (List F)) (x : F) (bound : Nat) :
    Below (batchProve H m pp tr ps x bound) (batchProve H m' pp tr ps x bound) := by
  unfold batchProve
  split
  · exact Below.refl _
  dsimp only
  refine Below.bind (Below.refl _) fun _ => Below.bind (Below.refl _) fun z => ?_
  cases z
  · exact Below.refl _
  · exact Below.bind (commit_mono hmm _ _) fun _ => Below.refl _

theorem prover_mono {n : Nat} (O : Oracle F G1 n) (pp : Params G1 G2) (lag : Option (Params G1 G2)) (tr : Tr F G1) (vo : Bool) (cs : CS F)
    (pk : PK G1 F) (w : List F) (coins : Coins F) : Below (prover O m pp lag tr vo cs pk w coins) (prover O m' pp lag tr vo cs pk w coins) := by
  unfold prover
  split
  · exact Below.refl _
  refine Below.bind (Below.refl _) fun _ => ?_
  refine Below.bind (Below.refl _) fun _ => ?_
  refine Below.bind (Below.refl _) fun _ => ?_
  refine Below.bind (Below.mapM (fun _ => commitHidden_mono hmm _ _ _ _ _ _) _) fun _ => ?_
  refine Below.bind (Below.refl _) fun _ => ?_
  refine Below.bind (commitHidden_mono hmm _ _ _ _ _ _) fun _ => ?_
  refine Below.bind (Below.refl _) fun _ => ?_
  refine Below.bind (splitT_mono hmm _ _ _ _) fun _ => ?_
  refine Below.bind (Below.refl _) fun _ => ?_
  refine Below.bind (Below.refl _) fun _ => ?_
  refine Below.bind (batchProve_mono hmm _ _ _ _ _ _) fun _ => ?_
  exact Below.bind (prove_mono hmm _ _ _ _) fun _ => Below.refl _

end mono

omit [DecidableEq F] in
theorem exact_correct : MsmCorrect (exact : List F → List G1 → Res G1) := fun _ _ _ => rfl

/-- C71 for any multi-exponentiation, that of the code included: when neither the indexer nor the prover meets a wrong result of
it, they return what they return with the right one, and the proof of a satisfied statement is accepted. -/
theorem C71_complete_any_msm (P : Pairing F G1 G2 Gt) (hP : NonDegenerate P) (msm : List F → List G1 → Res G1) (d : Nat)
    (s : F) (lag : Option (Params G1 G2)) (rootOf : Nat → Res (Option F)) (κ : Nat → F) (rootM root : F) (cs : CS F) (hwf : WF cs)
    (D : Domain cs.gates.length rootM root κ) (hd : cs.gates.length + 2 ≤ d)
    (hroot : rootOf (quotSize cs.gates.length) = .ok (some rootM)) (hlag : LagrangeOk P s root cs.gates.length lag)
    (O : Oracle F G1 cs.gates.length) (tr : Tr F G1) (wit : List F) (hwit : wit.length = cs.numVars)
    (hsat : Spec.Sat cs (fun v => wit[v]?.getD 0) (cs.pubVars.map fun v => wit[v]?.getD 0))
    (coins : Coins F) (hcw : coins.w.length = 5) (hc2 : ∀ b ∈ coins.w, b.length = 2) (hcz : coins.z.length = 3)
    (hct : coins.t.length = 5) (pk : PK G1 F) (pf : Proof G1 F)
    (hidx : indexer (checked msm) (setup P d s) lag rootOf ((List.range 5).map κ) cs = .ok pk)
    (hprv : prover O (checked msm) (setup P d s) lag tr false cs pk wit coins = .ok pf) :
    indexer msm (setup P d s) lag rootOf ((List.range 5).map κ) cs = .ok pk ∧
    prover O msm (setup P d s) lag tr false cs pk wit coins = .ok pf ∧
    verifier O P (setup P d s) tr pk.vk (cs.pubVars.map fun v => wit[v]?.getD 0) pf = .ok () := by
  refine ⟨indexer_mono (checked_below msm) _ _ _ _ _ _ hidx, prover_mono (checked_below msm) _ _ _ _ _ _ _ _ _ _ hprv, ?_⟩
  obtain ⟨pk', cmW, h1, -, h2⟩ := C71_complete P hP exact exact_correct d s lag rootOf κ rootM root cs hwf D hd hroot hlag wit hwit
    hsat coins hcw hc2 hcz hct
  replace h2 := h2 O tr
  have hpk : pk = pk' := by
    have := indexer_mono (checked_exact msm) _ _ _ _ _ _ hidx
    rw [h1] at this
    exact (Res.ok.inj this).symm
  subst hpk
  have hrun := prover_mono (checked_exact msm) _ _ _ _ _ _ _ _ _ _ hprv
  dsimp only at h2
  by_cases hbad : ∃ i < cs.gates.length - 1, zDen root κ (wireVal cs wit) (sigma cs) cs.gates.length
      (challenge O (initPlonk tr pk.vk (cs.pubVars.map fun v => wit[v]?.getD 0) ++ cmW.map .commitment) "beta").1
      (challenge O (challenge O (initPlonk tr pk.vk (cs.pubVars.map fun v => wit[v]?.getD 0) ++ cmW.map .commitment) "beta").2 "gamma").1 i = 0
  · have := h2.1 hbad
    rw [hrun] at this
    simp at this
  · obtain ⟨pf', h3, -, h4⟩ := h2.2 (fun i hi h => hbad ⟨i, hi, h⟩)
    rw [hrun] at h3
    rw [Res.ok.inj h3]
    exact h4

/-! ### the hypotheses are met -/

theorem checked97 : checked msm97 = msm97 := by
  funext s g
  unfold checked
  split
  · rfl
  · rename_i h
    exact absurd rfl h

/-- a run that gets through -/
example (s : ZMod 97) (tr : Tr (ZMod 97) (ZMod 97)) (a b : ZMod 97) :
    ∃ pk pf, indexer (checked msm97) (setup pairing97 4 s) none rootOf97 ((List.range 5).map κ97) square97 = .ok pk ∧
      prover oracle97' (checked msm97) (setup pairing97 4 s) none tr false square97 pk [0, 1, 5, 25]
        ⟨List.replicate 5 [a, b], [b, a, b], [a, a, b, b, a]⟩ = .ok pf ∧
      verifier oracle97' pairing97 (setup pairing97 4 s) tr pk.vk [5] pf = .ok () := by
  rw [checked97]
  obtain ⟨pk, cmW, h1, -, h2⟩ := C71_complete pairing97 pairing97_nonDegenerate msm97 msm97_correct 4 s none rootOf97
    κ97 28 (28 ^ 16) square97 square97_wf domain97 (by decide) rfl (by intro lp h; cases h) [0, 1, 5, 25] rfl square97_sat
    ⟨List.replicate 5 [a, b], [b, a, b], [a, a, b, b, a]⟩ rfl (by simp) rfl rfl
  obtain ⟨pf, h3, -, -⟩ := (h2 oracle97' tr).2 (by
    intro i hi
    have : i = 0 := by simp [square97] at hi; exact hi
    subst this
    show zDen (28 ^ 16) κ97 (wireVal square97 [0, 1, 5, 25]) (sigma square97) 2 2 2 0 ≠ 0
    decide +kernel)
  have hc := C71_complete_any_msm pairing97 pairing97_nonDegenerate msm97 4 s none rootOf97
    κ97 28 (28 ^ 16) square97 square97_wf domain97 (by decide) rfl (by intro lp h; cases h) oracle97' tr [0, 1, 5, 25] rfl square97_sat
    ⟨List.replicate 5 [a, b], [b, a, b], [a, a, b, b, a]⟩ rfl (by simp) rfl rfl pk pf (by rw [checked97]; exact h1)
    (by rw [checked97]; exact h3)
  exact ⟨pk, pf, h1, h3, hc.2.2⟩

end Verif.Snark
