import Verif.Crypto.ChaumPedersen
import Verif.Crypto.PedersenElGamal
import Verif.Crypto.DelegatedSchnorr

/-!
C90: the proofs of the sigma protocols show nothing but the statement.

For each prover: whatever the oracle, and whatever witness of the statement the prover has, every proof that the verifier
accepts is made by exactly one choice of the prover's random values, and no other proof is made.  With uniform random values
the proof is therefore uniform among the accepted ones, whichever the witness.
-/

namespace Verif.Sigma

open Verif.Pippenger (sumOfProducts)

variable {F G : Type} [Field F] [AddCommGroup G] [Module F G]

/-! ### Lemmas -/

/-- the blindings behind given responses -/
def unblind (c : F) (responses secrets : List F) : List F := List.zipWith (fun z s => z - s * c) responses secrets

omit [AddCommGroup G] [Module F G] in
theorem blind_unblind (c : F) (z s : List F) (h : z.length = s.length) :
    List.zipWith (fun s b => s * c + b) s (unblind c z s) = z := by
  unfold unblind
  induction z generalizing s with
  | nil => cases s with
    | nil => rfl
    | cons => simp at h
  | cons a z ih => cases s with
    | nil => simp at h
    | cons x s =>
      simp only [List.zipWith_cons_cons, List.cons.injEq]
      exact ⟨by ring, ih s (by simpa using h)⟩

theorem unblind_blind (c : F) (b s : List F) (h : b.length = s.length) :
    unblind c (List.zipWith (fun s b => s * c + b) s b) s = b := by
  unfold unblind
  induction b generalizing s with
  | nil => cases s with
    | nil => rfl
    | cons => simp at h
  | cons a b ih => cases s with
    | nil => simp at h
    | cons x s =>
      simp only [List.zipWith_cons_cons, List.cons.injEq]
      exact ⟨by ring, ih s (by simpa using h)⟩

theorem prove_eq (H : Tr F G → F) (tr : Tr F G) (b : List F) (elems : List G) (matrix : List (List Nat))
    (secrets : List F) (gss : List (List G)) (hl : ∀ row ∈ matrix, row.length = b.length)
    (h : matrix.mapM (fun row => row.mapM (fun i => elems[i]?)) = some gss) :
    prove H tr b elems matrix secrets = .ok
      (⟨gss.map (sumOfProducts b), List.zipWith (fun s x => s *
        H (challengePoint tr elems (gss.map (sumOfProducts b))) + x) secrets b⟩,
      challengePoint tr elems (gss.map (sumOfProducts b)) ++ [.challenge]) := by
  unfold prove
  rw [proofCommitments_ok b elems matrix gss hl h]
  rfl

/-! ### C90 -/

/-- **C90.**  For a true statement, a proof is made by the prover exactly when it has one commitment per row and one
response per secret and satisfies the verification equations for the challenge of its transcript; and then exactly one choice
of the blindings makes it. -/
theorem C90_sigma (H : Tr F G → F) (tr : Tr F G) (elems : List G) (matrix : List (List Nat)) (rhs : List Nat)
    (secrets : List F) (h : Holds elems matrix rhs secrets) (π : Proof F G) :
    ((∃ b, b.length = secrets.length ∧ ∃ tr', prove H tr b elems matrix secrets = .ok (π, tr')) ↔
      π.commitments.length = matrix.length ∧ π.responses.length = secrets.length ∧
        Equations elems matrix rhs π.commitments π.responses (H (challengePoint tr elems π.commitments))) ∧
    ∀ b b' tr₁ tr₂, b.length = secrets.length → b'.length = secrets.length →
      prove H tr b elems matrix secrets = .ok (π, tr₁) → prove H tr b' elems matrix secrets = .ok (π, tr₂) → b = b' := by
  obtain ⟨hv, hrow⟩ := h.valid
  obtain ⟨gss, hgss⟩ := mapM_some_of (fun row : List Nat => row.mapM (fun i => elems[i]?)) matrix
    (fun row hr => mapM_get_some row elems (hv.2.1 row hr))
  obtain ⟨l1, g1⟩ := mapM_some_get _ _ _ hgss
  have hpr := fun (b : List F) (hb : b.length = secrets.length) =>
    prove_eq H tr b elems matrix secrets gss (fun r hr => by rw [hb]; exact hrow r hr) hgss
  have hresp : ∀ (b : List F) tr', b.length = secrets.length → prove H tr b elems matrix secrets = .ok (π, tr') →
      b = unblind (H (challengePoint tr elems π.commitments)) π.responses secrets := by
    intro b tr' hb hp
    rw [hpr b hb] at hp
    obtain rfl := (Prod.mk.inj (Res.ok.inj hp)).1
    exact (unblind_blind _ b secrets hb).symm
  refine ⟨⟨?_, ?_⟩, fun b b' tr₁ tr₂ hb hb' hp hp' => (hresp b tr₁ hb hp).trans (hresp b' tr₂ hb' hp').symm⟩
  · rintro ⟨b, hb, tr', hp⟩
    rw [hpr b hb] at hp
    obtain rfl := (Prod.mk.inj (Res.ok.inj hp)).1
    refine ⟨by simp [l1], by simp [hb], ?_⟩
    intro j row t com hr ht hcom
    obtain ⟨gs, hgs, hj⟩ := g1 j row hr
    obtain ⟨gt, e4, e5⟩ := h.get j row t hr ht
    simp only [List.getElem?_map, hj, Option.map_some, Option.some.injEq] at hcom
    subst hcom
    simp only [lin, hgs, Option.map_some, Option.some.injEq] at e5
    refine ⟨_, gt, by simp only [lin, hgs, Option.map_some]; rfl, e4, ?_⟩
    rw [dot_zipWith_mul_add _ _ _ _ hb.symm, e5]
  · rintro ⟨hc, hz, heq⟩
    obtain ⟨coms, z⟩ := π
    simp only at hc hz heq hpr
    generalize hcv : H (challengePoint tr elems coms) = c at heq
    have hb : (unblind c z secrets).length = secrets.length := by simp [unblind, hz]
    have hcoms : gss.map (sumOfProducts (unblind c z secrets)) = coms := by
      refine List.ext_getElem? (fun j => ?_)
      by_cases hj : j < matrix.length
      · have hr := List.getElem?_eq_getElem hj
        have ht := List.getElem?_eq_getElem (l := rhs) (i := j) (by rw [← hv.1]; exact hj)
        have hk := List.getElem?_eq_getElem (l := coms) (i := j) (by rw [hc]; exact hj)
        obtain ⟨gs, hgs, hgj⟩ := g1 j _ hr
        obtain ⟨gt, e4, e5⟩ := h.get j _ _ hr ht
        obtain ⟨g, gt', e1, e2, e3⟩ := heq j _ _ _ hr ht hk
        rw [e4] at e2
        obtain rfl := Option.some.inj e2
        simp only [lin, hgs, Option.map_some, Option.some.injEq] at e1 e5
        have hd := dot_zipWith_mul_add secrets (unblind c z secrets) c gs hb.symm
        rw [blind_unblind c z secrets hz, e1, e5, e3] at hd
        rw [List.getElem?_map, hgj, hk, Option.map_some, add_left_cancel hd]
      · rw [List.getElem?_eq_none (by simp [l1]; omega), List.getElem?_eq_none (by omega)]
    refine ⟨unblind c z secrets, hb, challengePoint tr elems coms ++ [.challenge], ?_⟩
    rw [hpr _ hb, hcoms, hcv, blind_unblind c z secrets hz]

/-- **C90.**  Two witnesses of the same statement: the same proofs are made, each once. -/
theorem C90_sigma_indistinguishable (H : Tr F G → F) (tr : Tr F G) (elems : List G) (matrix : List (List Nat))
    (rhs : List Nat) (secrets secrets' : List F) (hl : secrets.length = secrets'.length)
    (h : Holds elems matrix rhs secrets) (h' : Holds elems matrix rhs secrets') (π : Proof F G) :
    (∃! b, b.length = secrets.length ∧ ∃ tr', prove H tr b elems matrix secrets = .ok (π, tr')) ↔
      ∃! b, b.length = secrets'.length ∧ ∃ tr', prove H tr b elems matrix secrets' = .ok (π, tr') := by
  have key : ∀ s, Holds elems matrix rhs s →
      ((∃! b, b.length = s.length ∧ ∃ tr', prove H tr b elems matrix s = .ok (π, tr')) ↔
        ∃ b, b.length = s.length ∧ ∃ tr', prove H tr b elems matrix s = .ok (π, tr')) := by
    intro s hs
    refine ⟨fun ⟨b, hb, _⟩ => ⟨b, hb⟩, fun ⟨b, hb⟩ => ⟨b, hb, fun b' hb' => ?_⟩⟩
    obtain ⟨t, ht⟩ := hb.2
    obtain ⟨t', ht'⟩ := hb'.2
    exact (C90_sigma H tr elems matrix rhs s hs π).2 b' b t' t hb'.1 hb.1 ht' ht
  rw [key secrets h, key secrets' h', (C90_sigma H tr elems matrix rhs secrets h π).1,
    (C90_sigma H tr elems matrix rhs secrets' h' π).1, hl]

/-- two witnesses of one statement over the integers modulo 101 (`3·1 + 4·2 = 1·1 + 5·2 = 11`), and a proof -/
example : Holds (F := ZMod 101) (G := ZMod 101) [1, 2, 11] [[0, 1]] [2] [3, 4] ∧ Holds (F := ZMod 101) (G := ZMod 101) [1, 2, 11] [[0, 1]] [2] [1, 5] ∧
    Equations (F := ZMod 101) (G := ZMod 101) [1, 2, 11] [[0, 1]] [2] [8] [9, 5] 1 := by
  refine ⟨.cons ⟨rfl, 11, rfl, ?_⟩ .nil, .cons ⟨rfl, 11, rfl, ?_⟩ .nil, ?_⟩
  · simp [lin, dot_cons, dot_nil]; decide
  · simp [lin, dot_cons, dot_nil]; decide
  · intro j row t com hr ht hc
    have hj : j < 1 := (List.getElem?_eq_some_iff.mp hr).1
    interval_cases j
    obtain rfl := Option.some.inj hr
    obtain rfl := Option.some.inj ht
    obtain rfl := Option.some.inj hc
    exact ⟨_, _, rfl, rfl, by decide⟩

end Verif.Sigma

namespace Verif.ChaumPedersen

open Verif.Pippenger (sumOfProducts)
open Verif.Sigma (Tr Msg challengePoint)

variable {F G : Type} [Field F] [AddCommGroup G] [Module F G]

theorem holds_of_opens (g : Gens G) (c1 c2 : G) (v r1 r2 : F) (h1 : Opens g c1 v r1) (h2 : Opens g c2 v r2) :
    Sigma.Holds (elems g c1 c2) matrix rhs [v, r1, r2] := by
  refine .cons ⟨rfl, c1, rfl, ?_⟩ (.cons ⟨rfl, c2, rfl, ?_⟩ .nil)
  · simp [Sigma.lin, elems, Sigma.dot_cons, Sigma.dot_nil]; exact h1.symm
  · simp [Sigma.lin, elems, Sigma.dot_cons, Sigma.dot_nil]; exact h2.symm

theorem proveEq_iff (g : Gens G) (H : Tr F G → F) (tr : Tr F G) (b1 b2 b3 v r1 r2 : F) (c1 c2 : G) (p : Proof F G)
    (tr' : Tr F G) :
    proveEq g H tr [b1, b2, b3] v (c1, r1) (c2, r2) = .ok (p, tr') ↔
      Sigma.prove H (initTr tr) [b1, b2, b3] (elems g c1 c2) matrix [v, r1, r2] = .ok (sigmaProof p, tr') := by
  unfold proveEq
  have hm : matrix.mapM (fun row => row.mapM (fun i => (elems g c1 c2)[i]?)) =
      some [[g.B, g.Bb, 0], [g.B, 0, g.Bb]] := rfl
  have hs := Sigma.prove_eq H (initTr tr) [b1, b2, b3] (elems g c1 c2) matrix [v, r1, r2] _ (by simp [matrix]) hm
  simp only [hs]
  obtain ⟨c3, c4, z1, z2, z3⟩ := p
  simp [sigmaProof, Res.unwrap, Res.bind_ok, and_assoc]

/-- **C90.**  Equality of two commitments: every accepted proof is made by exactly one triple of blindings, whatever the
openings are. -/
theorem C90_chaum_pedersen [DecidableEq G] (g : Gens G) (H : Tr F G → F) (tr : Tr F G) (v r1 r2 : F) (c1 c2 : G)
    (h1 : Opens g c1 v r1) (h2 : Opens g c2 v r2) (p : Proof F G)
    (hp : ∀ alphas, ∃ tr', verifyEq g H tr alphas c1 c2 p = .ok tr') :
    ∃! b : F × F × F, ∃ tr', proveEq g H tr [b.1, b.2.1, b.2.2] v (c1, r1) (c2, r2) = .ok (p, tr') := by
  rw [C35_eq_accepts_iff, ← equations_iff] at hp
  have hh := holds_of_opens g c1 c2 v r1 r2 h1 h2
  obtain ⟨hex, hun⟩ := Sigma.C90_sigma H (initTr tr) (elems g c1 c2) matrix rhs [v, r1, r2] hh (sigmaProof p)
  obtain ⟨b, hb, tr', hb'⟩ := hex.mpr ⟨rfl, rfl, hp⟩
  match b, hb with
  | [b1, b2, b3], _ =>
    refine ⟨(b1, b2, b3), ⟨tr', (proveEq_iff g H tr b1 b2 b3 v r1 r2 c1 c2 p tr').mpr hb'⟩, ?_⟩
    rintro ⟨d1, d2, d3⟩ ⟨tr₂, hd⟩
    have := hun [d1, d2, d3] [b1, b2, b3] _ _ rfl rfl ((proveEq_iff g H tr d1 d2 d3 v r1 r2 c1 c2 p tr₂).mp hd) hb'
    simpa using this

/-- the transcript a prover leaves is the one of the verifier -/
theorem proveEq_tr (g : Gens G) (H : Tr F G → F) (tr : Tr F G) (b1 b2 b3 v r1 r2 : F) (c1 c2 : G) (p : Proof F G)
    (tr' : Tr F G) (h : proveEq g H tr [b1, b2, b3] v (c1, r1) (c2, r2) = .ok (p, tr')) :
    tr' = eqPoint g tr c1 c2 p ++ [.challenge] := by
  rw [proveEq_iff] at h
  have hm : matrix.mapM (fun row => row.mapM (fun i => (elems g c1 c2)[i]?)) =
      some [[g.B, g.Bb, 0], [g.B, 0, g.Bb]] := rfl
  rw [Sigma.prove_eq H (initTr tr) [b1, b2, b3] (elems g c1 c2) matrix [v, r1, r2] _ (by simp [matrix]) hm] at h
  obtain ⟨ha, hb⟩ := Prod.mk.inj (Res.ok.inj h)
  rw [← hb]
  have : (sigmaProof p).commitments = [p.c3, p.c4] := rfl
  rw [eqPoint, ← this, ← ha]

/-- **C90.**  Equality of many commitments: every accepted proof is made by exactly one choice of the six blindings (three
when there are two commitments only), whatever the openings are. -/
theorem C90_chaum_pedersen_multiple [DecidableEq G] (g : Gens G) (H : Tr F G → F) (tr : Tr F G) (v : F) (c0 c1 : G)
    (cs : List G) (r0 r1 : F) (rs : List F) (h0 : Opens g c0 v r0) (h1 : Opens g c1 v r1)
    (h : List.Forall₂ (fun c r => Opens g c v r) cs rs) (p : ProofX F G)
    (hp : ∀ al1 al2, ∃ tr', verifyMultiple g H tr al1 al2 (c0 :: c1 :: cs) p = .ok tr') :
    (cs = [] → ∃! b : F × F × F, ∀ bl2, ∃ tr', proveMultiple g H tr [b.1, b.2.1, b.2.2] bl2 v (c0 :: c1 :: cs) (r0 :: r1 :: rs) =
      .ok (p, tr')) ∧
    (cs ≠ [] → ∃! b : (F × F × F) × (F × F × F), ∃ tr', proveMultiple g H tr [b.1.1, b.1.2.1, b.1.2.2]
      [b.2.1, b.2.2.1, b.2.2.2] v (c0 :: c1 :: cs) (r0 :: r1 :: rs) = .ok (p, tr')) := by
  have hlen := h.length_eq
  obtain ⟨q, zo⟩ := p
  set tr0 := initMultiple g tr (c0 :: c1 :: cs) with htr0
  have hq : ∀ al, ∃ tr', verifyEq g H tr0 al c0 c1 q = .ok tr' := by
    intro al
    obtain ⟨tr', ht⟩ := hp al al
    simp only [verifyMultiple] at ht
    obtain ⟨t, h1, -⟩ := Res.bind_eq_ok.mp ht
    exact ⟨t, h1⟩
  have hu := C90_chaum_pedersen g H tr0 v r0 r1 c0 c1 h0 h1 q hq
  have hvt : ∀ al, verifyEq g H tr0 al c0 c1 q = .ok (eqPoint g tr0 c0 c1 q ++ [.challenge]) := by
    intro al
    obtain ⟨t, ht⟩ := hq al
    rw [verifyEq_eq] at ht ⊢
    split at ht
    · next hz => rw [if_pos hz]
    · simp at ht
  constructor
  · rintro rfl
    cases rs with
    | cons => simp at hlen
    | nil =>
      have hz : zo = none := by
        obtain ⟨tr', ht⟩ := hp 0 0
        simp only [verifyMultiple] at ht
        obtain ⟨t, -, h2⟩ := Res.bind_eq_ok.mp ht
        cases zo with
        | none => rfl
        | some _ => simp [noZero] at h2
      subst hz
      have key : ∀ b : F × F × F, (∀ bl2, ∃ tr', proveMultiple g H tr [b.1, b.2.1, b.2.2] bl2 v [c0, c1] [r0, r1] =
          .ok (⟨q, none⟩, tr')) ↔ ∃ tr', proveEq g H tr0 [b.1, b.2.1, b.2.2] v (c0, r0) (c1, r1) = .ok (q, tr') := by
        intro b
        constructor
        · intro hb
          obtain ⟨tr', ht⟩ := hb []
          simp only [proveMultiple, List.length_cons, List.length_nil, ne_eq, not_true_eq_false, Nat.lt_irrefl, or_self,
            if_false, if_true] at ht
          obtain ⟨⟨q', t⟩, h1, h2⟩ := Res.bind_eq_ok.mp ht
          simp only [Res.pure_eq, Res.ok.injEq, Prod.mk.injEq, ProofX.mk.injEq, and_true] at h2
          obtain ⟨rfl, rfl⟩ := h2
          exact ⟨_, h1⟩
        · rintro ⟨tr', ht⟩ bl2
          refine ⟨tr', ?_⟩
          simp only [proveMultiple, List.length_cons, List.length_nil, ne_eq, not_true_eq_false, Nat.lt_irrefl, or_self,
            if_false, if_true]
          rw [← htr0, ht]
          rfl
      simpa only [key] using hu
  · intro hne
    have hcl : cs.length ≠ 0 := by simpa using hne
    cases zo with
    | none =>
      obtain ⟨tr', ht⟩ := hp 0 0
      simp only [verifyMultiple, hcl, if_false] at ht
      obtain ⟨t, -, h2⟩ := Res.bind_eq_ok.mp ht
      simp at h2
    | some z =>
      set tr1 := eqPoint g tr0 c0 c1 q ++ [.challenge] with htr1
      have hz : ∀ al, ∃ tr', verifyEq g H (lcScalars H tr1 cs.length).2 al
          (combine (lcScalars H tr1 cs.length).1 c0 cs) 0 z = .ok tr' := by
        intro al
        obtain ⟨tr', ht⟩ := hp 0 al
        simp only [verifyMultiple, hcl, if_false] at ht
        obtain ⟨t, h1, h2⟩ := Res.bind_eq_ok.mp ht
        rw [← htr0, hvt 0] at h1
        obtain rfl := Res.ok.inj h1
        exact ⟨tr', h2⟩
      have hu2 := C90_chaum_pedersen g H (lcScalars H tr1 cs.length).2 0 (combine (G := F) (lcScalars H tr1 cs.length).1 r0 rs) 0
        (combine (lcScalars H tr1 cs.length).1 c0 cs) 0 (combine_opens g v r0 c0 h0 _ cs rs h) (by simp [Opens]) z hz
      have key : ∀ b : (F × F × F) × (F × F × F), (∃ tr', proveMultiple g H tr [b.1.1, b.1.2.1, b.1.2.2]
          [b.2.1, b.2.2.1, b.2.2.2] v (c0 :: c1 :: cs) (r0 :: r1 :: rs) = .ok (⟨q, some z⟩, tr')) ↔
          (∃ tr', proveEq g H tr0 [b.1.1, b.1.2.1, b.1.2.2] v (c0, r0) (c1, r1) = .ok (q, tr')) ∧
          ∃ tr', proveEq g H (lcScalars H tr1 cs.length).2 [b.2.1, b.2.2.1, b.2.2.2] 0
            (combine (lcScalars H tr1 cs.length).1 c0 cs, combine (G := F) (lcScalars H tr1 cs.length).1 r0 rs) (0, 0) =
              .ok (z, tr') := by
        intro b
        have hg : ¬ ((c0 :: c1 :: cs).length ≠ (r0 :: r1 :: rs).length ∨ (c0 :: c1 :: cs).length < 2) := by
          simp [hlen]
        constructor
        · rintro ⟨tr', ht⟩
          rw [proveMultiple, if_neg hg] at ht
          simp only [hcl, if_false, ← htr0] at ht
          obtain ⟨⟨q', t⟩, e1, e2⟩ := Res.bind_eq_ok.mp ht
          simp only at e2
          obtain ⟨⟨z', t'⟩, e3, e4⟩ := Res.bind_eq_ok.mp e2
          simp only [Res.pure_eq, Res.ok.injEq, Prod.mk.injEq, ProofX.mk.injEq, Option.some.injEq] at e4
          obtain ⟨⟨rfl, rfl⟩, rfl⟩ := e4
          have := proveEq_tr _ _ _ _ _ _ _ _ _ _ _ _ _ e1
          subst this
          exact ⟨⟨_, e1⟩, ⟨_, e3⟩⟩
        · rintro ⟨⟨t, e1⟩, ⟨t', e3⟩⟩
          have := proveEq_tr _ _ _ _ _ _ _ _ _ _ _ _ _ e1
          subst this
          refine ⟨t', ?_⟩
          rw [proveMultiple, if_neg hg]
          simp only [hcl, if_false, ← htr0, e1, Res.bind_ok]
          rw [← htr1, e3]
          rfl
      obtain ⟨b, hb, hb'⟩ := hu
      obtain ⟨d, hd, hd'⟩ := hu2
      refine ⟨(b, d), (key _).mpr ⟨hb, hd⟩, ?_⟩
      rintro ⟨b₂, d₂⟩ h2
      obtain ⟨i1, i2⟩ := (key _).mp h2
      rw [hb' b₂ i1, hd' d₂ i2]

/-- two openings of a pair of commitments over the integers modulo 101, and an accepted proof -/
example : let g : Gens (ZMod 101) := ⟨1, 2⟩
    Opens g 11 (1 : ZMod 101) 5 ∧ Opens g 13 (1 : ZMod 101) 6 ∧ Opens g 11 (3 : ZMod 101) 4 ∧ Opens g 13 (3 : ZMod 101) 5 ∧
    ∃ p, ∀ alphas, ∃ tr', verifyEq g (fun _ => (7 : ZMod 101)) [] alphas 11 13 p = .ok tr' := by
  intro g
  have h1 : Opens g 11 (1 : ZMod 101) 5 := by unfold Opens; decide
  have h2 : Opens g 13 (1 : ZMod 101) 6 := by unfold Opens; decide
  refine ⟨h1, h2, by unfold Opens; decide, by unfold Opens; decide, ?_⟩
  obtain ⟨p, tr', hp, -⟩ := C35_eq_complete g (fun _ => (7 : ZMod 101)) [] [1, 2, 3] rfl 0 1 5 6 11 13 h1 h2
  refine ⟨p, fun alphas => ?_⟩
  obtain ⟨p', tr₂, hp', hv⟩ := C35_eq_complete g (fun _ => (7 : ZMod 101)) [] [1, 2, 3] rfl alphas 1 5 6 11 13 h1 h2
  rw [hp] at hp'
  obtain ⟨rfl, rfl⟩ := Prod.mk.inj (Res.ok.inj hp')
  exact ⟨_, hv⟩

end Verif.ChaumPedersen

namespace Verif.PedersenElGamal

open Verif.Pippenger (sumOfProducts)
open Verif.Sigma (Tr Msg challengePoint)
open Verif.ChaumPedersen (Gens)

variable {F G : Type} [Field F] [AddCommGroup G] [Module F G]

theorem holds_of_stmt (g : Gens G) (pk : G) (ct : Ctext G) (com : G) (m r : F) (h : Stmt g pk ct com m r) :
    Sigma.Holds (elems g pk ct com) matrix rhs [m, r] := by
  obtain ⟨h1, h2, h3⟩ := h
  refine .cons ⟨rfl, ct.e1, rfl, ?_⟩ (.cons ⟨rfl, ct.e2, rfl, ?_⟩ (.cons ⟨rfl, com, rfl, ?_⟩ .nil))
  · simp [Sigma.lin, elems, Sigma.dot_cons, Sigma.dot_nil]; exact h1.symm
  · simp [Sigma.lin, elems, Sigma.dot_cons, Sigma.dot_nil]; exact h2.symm
  · simp [Sigma.lin, elems, Sigma.dot_cons, Sigma.dot_nil]; exact h3.symm

/-- the sigma proof inside -/
def sigmaProof (p : Proof F G) : Sigma.Proof F G := ⟨[p.e1.e1, p.e1.e2, p.c1], [p.z1, p.z2]⟩

theorem eqProve_iff (g : Gens G) (H : Tr F G → F) (tr : Tr F G) (b1 b2 m r : F) (pk : G) (ct : Ctext G) (com : G)
    (p : Proof F G) (tr' : Tr F G) :
    eqProve g H tr [b1, b2] m r pk ct com = .ok (p, tr') ↔
      Sigma.prove H (initTr tr) [b1, b2] (elems g pk ct com) matrix [m, r] = .ok (sigmaProof p, tr') := by
  unfold eqProve
  have hm : matrix.mapM (fun row => row.mapM (fun i => (elems g pk ct com)[i]?)) =
      some [[0, g.B], [g.B, pk], [g.B, g.Bb]] := rfl
  have hs := Sigma.prove_eq H (initTr tr) [b1, b2] (elems g pk ct com) matrix [m, r] _ (by simp [matrix]) hm
  simp only [hs]
  obtain ⟨z1, z2, ⟨e1, e2⟩, c1⟩ := p
  simp [sigmaProof, Res.unwrap, Res.bind_ok]
  tauto

theorem equations_iff (g : Gens G) (pk : G) (ct : Ctext G) (com : G) (p : Proof F G) (c : F) :
    Sigma.Equations (elems g pk ct com) matrix rhs (sigmaProof p).commitments (sigmaProof p).responses c ↔
      Equations g pk ct com p c := by
  have e0 : Sigma.lin (elems g pk ct com) [0, 1] [p.z1, p.z2] = some (p.z2 • g.B) := by
    simp [Sigma.lin, elems, Sigma.dot_cons, Sigma.dot_nil]
  have e1 : Sigma.lin (elems g pk ct com) [1, 3] [p.z1, p.z2] = some (p.z1 • g.B + p.z2 • pk) := by
    simp [Sigma.lin, elems, Sigma.dot_cons, Sigma.dot_nil]
  have e2 : Sigma.lin (elems g pk ct com) [1, 2] [p.z1, p.z2] = some (p.z1 • g.B + p.z2 • g.Bb) := by
    simp [Sigma.lin, elems, Sigma.dot_cons, Sigma.dot_nil]
  have key : ∀ (row : List Nat) (x y z : G), Sigma.lin (elems g pk ct com) row [p.z1, p.z2] = some x →
      ((∃ g' gt, Sigma.lin (elems g pk ct com) row [p.z1, p.z2] = some g' ∧ some y = some gt ∧ g' = c • gt + z) ↔
        x = c • y + z) := by
    intro row x y z hx
    rw [hx]
    simp
  constructor
  · intro h
    exact ⟨(key _ _ _ _ e0).mp (h 0 _ _ _ rfl rfl rfl), (key _ _ _ _ e1).mp (h 1 _ _ _ rfl rfl rfl),
      (key _ _ _ _ e2).mp (h 2 _ _ _ rfl rfl rfl)⟩
  · rintro ⟨h0, h1, h2⟩ j row t cm hr ht hc
    have hj : j < 3 := (List.getElem?_eq_some_iff.mp hr).1
    interval_cases j
    · obtain rfl := Option.some.inj hr
      obtain rfl := Option.some.inj ht
      obtain rfl := Option.some.inj hc
      exact (key _ _ _ _ e0).mpr h0
    · obtain rfl := Option.some.inj hr
      obtain rfl := Option.some.inj ht
      obtain rfl := Option.some.inj hc
      exact (key _ _ _ _ e1).mpr h1
    · obtain rfl := Option.some.inj hr
      obtain rfl := Option.some.inj ht
      obtain rfl := Option.some.inj hc
      exact (key _ _ _ _ e2).mpr h2

theorem eqProve_unique (g : Gens G) (H : Tr F G → F) (tr : Tr F G) (m r : F) (pk : G) (ct : Ctext G) (com : G)
    (h : Stmt g pk ct com m r) (p : Proof F G) (hp : Equations g pk ct com p (H (eqPoint g tr pk ct com p))) :
    ∃! b : F × F, ∃ tr', eqProve g H tr [b.1, b.2] m r pk ct com = .ok (p, tr') := by
  obtain ⟨hex, hun⟩ := Sigma.C90_sigma H (initTr tr) (elems g pk ct com) matrix rhs [m, r] (holds_of_stmt g pk ct com m r h)
    (sigmaProof p)
  obtain ⟨b, hb, tr', hb'⟩ := hex.mpr ⟨rfl, rfl, (equations_iff g pk ct com p _).mpr hp⟩
  match b, hb with
  | [b1, b2], _ =>
    refine ⟨(b1, b2), ⟨tr', (eqProve_iff g H tr b1 b2 m r pk ct com p tr').mpr hb'⟩, ?_⟩
    rintro ⟨d1, d2⟩ ⟨tr₂, hd⟩
    have := hun [d1, d2] [b1, b2] _ _ rfl rfl ((eqProve_iff g H tr d1 d2 m r pk ct com p tr₂).mp hd) hb'
    simpa using this

/-- **C90.**  Equality of a ciphertext and a commitment: every accepted proof is made by exactly one pair of blindings,
whatever the message and the randomness are. -/
theorem C90_pedersen_elgamal [DecidableEq G] (g : Gens G) (H : Tr F G → F) (tr : Tr F G) (m r : F) (pk : G) (ct : Ctext G)
    (com : G) (h : Stmt g pk ct com m r) (p : Proof F G) (hp : ∀ al, ∃ tr', eqVerify g H tr al pk ct com p = .ok tr') :
    ∃! b : F × F, ∃ tr', eqProve g H tr [b.1, b.2] m r pk ct com = .ok (p, tr') :=
  eqProve_unique g H tr m r pk ct com h p ((C36_eq_accepts_iff g H tr pk ct com p).mp hp)

/-- **C90.**  The aggregated proof for many ciphertexts and commitments: every accepted proof is made by exactly one pair of
blindings, whatever the messages and the randomness are. -/
theorem C90_pedersen_elgamal_aggregate [DecidableEq G] (g : Gens G) (H : Tr F G → F) (tr : Tr F G) (ms rs : List F) (pk : G)
    (cts : List (Ctext G)) (coms : List G) (h : Stmts g pk cts coms ms rs) (p : Proof F G)
    (hp : ∀ r, aggVerify g H tr r ⟨pk, cts, coms, p⟩ = .ok ()) :
    ∃! b : F × F, ∃ tr', aggProve g H tr [b.1, b.2] ms rs pk cts coms = .ok (p, tr') := by
  obtain ⟨l1, l2, l3⟩ := h.lengths
  have hl : cts.length = coms.length := by omega
  have he := (C36_batch_iff g H tr [⟨pk, cts, coms, p⟩] (by simpa using hl)).mp (by
    intro coins hc
    match coins, hc with
    | [c], _ => exact hp c) _ (List.mem_singleton.mpr rfl)
  simp only at he
  have key : ∀ b : F × F, (∃ tr', aggProve g H tr [b.1, b.2] ms rs pk cts coms = .ok (p, tr')) ↔ ∃ tr',
      eqProve g H (lcScalars H (initAgg g tr pk cts coms) cts.length).2 [b.1, b.2]
        (lc (lcScalars H (initAgg g tr pk cts coms) cts.length).1 ms) (lc (lcScalars H (initAgg g tr pk cts coms) cts.length).1 rs)
        pk (lcCt (lcScalars H (initAgg g tr pk cts coms) cts.length).1 cts)
        (lc (lcScalars H (initAgg g tr pk cts coms) cts.length).1 coms) = .ok (p, tr') := by
    intro b
    unfold aggProve
    rw [if_pos ⟨l1, l2, l3⟩, l2]
  simp only [key]
  exact eqProve_unique g H _ _ _ pk _ _ (C36_aggregate_linear g pk _ cts coms ms rs h) p he

/-- two ciphertexts and commitments with their openings over the integers modulo 101; the aggregated proof is accepted -/
example : let g : Gens (ZMod 101) := ⟨1, 2⟩
    let cts : List (Ctext (ZMod 101)) := [⟨4, 3 + 4 * 5⟩, ⟨6, 7 + 6 * 5⟩]
    Stmts g 5 cts [3 + 4 * 2, 7 + 6 * 2] [(3 : ZMod 101), 7] [4, 6] ∧
    ∃ p, ∀ r, aggVerify g (fun _ => (7 : ZMod 101)) [] r ⟨5, cts, [3 + 4 * 2, 7 + 6 * 2], p⟩ = .ok () := by
  intro g cts
  have h : Stmts g 5 cts [3 + 4 * 2, 7 + 6 * 2] [(3 : ZMod 101), 7] [4, 6] := by
    simp only [cts, g, Stmts, Stmt]
    decide
  obtain ⟨p, -, -, hv⟩ := C36_aggregate_complete g (fun _ => (7 : ZMod 101)) [] [1, 2] rfl _ _ 5 cts _ h
  exact ⟨h, p, hv⟩

end Verif.PedersenElGamal

namespace Verif.DelegatedSchnorr

open Verif.ChaumPedersen (Gens Opens)

variable {F G K : Type} [Field F] [AddCommGroup G] [Module F G]

/-- the randomizer scalars behind given responses -/
def unblind (beta : F) (responses data : List (F × F)) : List (F × F) :=
  List.zipWith (fun z d => (z.1 - beta * d.1, z.2 - beta * d.2)) responses data

theorem blind_unblind (beta : F) (z d : List (F × F)) (h : z.length = d.length) :
    List.zipWith (fun d p => (beta * d.1 + p.1, beta * d.2 + p.2)) d (unblind beta z d) = z := by
  unfold unblind
  induction z generalizing d with
  | nil => cases d with
    | nil => rfl
    | cons => simp at h
  | cons a z ih => cases d with
    | nil => simp at h
    | cons x d =>
      simp only [List.zipWith_cons_cons, List.cons.injEq]
      exact ⟨by ext <;> simp, ih d (by simpa using h)⟩

theorem unblind_blind (beta : F) (p d : List (F × F)) (h : p.length = d.length) :
    unblind beta (List.zipWith (fun d p => (beta * d.1 + p.1, beta * d.2 + p.2)) d p) d = p := by
  unfold unblind
  induction p generalizing d with
  | nil => cases d with
    | nil => rfl
    | cons => simp at h
  | cons a p ih => cases d with
    | nil => simp at h
    | cons x d =>
      simp only [List.zipWith_cons_cons, List.cons.injEq]
      exact ⟨by ext <;> simp, ih d (by simpa using h)⟩

/-- the commitments that the responses of the unblinded scalars leave -/
theorem unblind_commit (g : Gens G) (beta : F) (z data : List (F × F)) (coms rands : List G)
    (hd : List.Forall₂ (fun c d => Opens g c d.1 d.2) coms data) (hz : z.length = data.length)
    (hr : rands.length = data.length) (he : Equations g beta coms rands z) :
    (unblind beta z data).map (fun p => commit g p.1 p.2) = rands := by
  unfold unblind
  induction hd generalizing z rands with
  | nil =>
    obtain rfl := List.length_eq_zero_iff.mp hz
    obtain rfl := List.length_eq_zero_iff.mp hr
    rfl
  | @cons c d coms data hc _ ih =>
    match z, rands, hz, hr with
    | a :: z, r :: rands, hz, hr =>
      simp only [List.zipWith_cons_cons, List.map_cons, List.cons.injEq]
      refine ⟨?_, ih z rands (by simpa using hz) (by simpa using hr) (fun j c' r' s' h1 h2 h3 =>
        he (j + 1) c' r' s' (by simpa using h1) (by simpa using h2) (by simpa using h3))⟩
      have e := he 0 c r a rfl rfl rfl
      have hc' : c = d.1 • g.B + d.2 • g.Bb := hc
      unfold commit
      rw [hc'] at e
      linear_combination (norm := module) e

/-- **C90.**  Delegated Schnorr: for an accepted proof, whatever the openings of the commitments are and whichever `r` the
prover draws for the commitment to the inspector's state, exactly one choice of the randomizer scalars makes the proof if the
state commitment of the proof is the one to the state that follows, and none otherwise.  The proof therefore hides the
openings as well as the commitment to the state does. -/
theorem C90_delegated_schnorr [DecidableEq G] (comm : List F → List F → K → K) (g : Gens G) (H : Tr F G K → F)
    (tr : Tr F G K) (data : List (F × F)) (coms : List G) (hd : List.Forall₂ (fun c d => Opens g c d.1 d.2) coms data)
    (p : Proof F G K) (hl : coms.length = p.randomizers.length ∧ coms.length = p.responses.length)
    (hp : ∃ out, verify g H tr coms p = .ok out) (r : K) :
    let beta := H (point1 g tr coms p.comm p.randomizers)
    (comm (data.map (·.1)) (List.zipWith (fun z d => z.1 - beta * d.1) p.responses data) r = p.comm →
      ∃! rand : List (F × F), rand.length = data.length ∧ ∃ out, prove comm g H tr rand r data coms = .ok (p, out)) ∧
    (comm (data.map (·.1)) (List.zipWith (fun z d => z.1 - beta * d.1) p.responses data) r ≠ p.comm →
      ∀ rand : List (F × F), rand.length = data.length → ∀ out, prove comm g H tr rand r data coms ≠ .ok (p, out)) := by
  intro beta
  have hlen := hd.length_eq
  have he : Equations g beta coms p.randomizers p.responses := by
    by_contra hne
    obtain ⟨out, ho⟩ := hp
    rw [(C65_accepts_iff g H tr coms p hl).2 hne] at ho
    simp at ho
  have hfst : (unblind beta p.responses data).map (·.1) =
      List.zipWith (fun z d => z.1 - beta * d.1) p.responses data := by
    unfold unblind
    rw [List.map_zipWith]
  have hun : ∀ rand out, rand.length = data.length → prove comm g H tr rand r data coms = .ok (p, out) →
      rand = unblind beta p.responses data ∧ comm (data.map (·.1)) (rand.map (·.1)) r = p.comm := by
    intro rand out hr h
    unfold prove at h
    rw [if_pos hlen.symm] at h
    obtain ⟨h1, -⟩ := Prod.mk.inj (Res.ok.inj h)
    obtain rfl := h1
    exact ⟨(unblind_blind _ rand data hr).symm, rfl⟩
  constructor
  · intro hk
    refine ⟨unblind beta p.responses data, ⟨by simp [unblind, ← hl.2, hlen], ?_⟩, fun rand hrand => ?_⟩
    · unfold prove
      rw [if_pos hlen.symm, hfst, hk, unblind_commit g beta p.responses data coms p.randomizers hd (by omega) (by omega) he]
      simp only
      rw [show H (point1 g tr coms p.comm p.randomizers) = beta from rfl, blind_unblind _ _ _ (by omega)]
      exact ⟨_, rfl⟩
    · obtain ⟨hr, out, ho⟩ := hrand
      exact (hun rand out hr ho).1
  · intro hk rand hr out ho
    obtain ⟨h1, h2⟩ := hun rand out hr ho
    rw [h1, hfst] at h2
    exact hk h2

/-- an opening over the integers modulo 101, an accepted proof and a state commitment of the form asked for -/
example : let g : Gens (ZMod 101) := ⟨1, 2⟩
    let H : Tr (ZMod 101) (ZMod 101) (ZMod 101) → ZMod 101 := fun _ => 7
    let comm : List (ZMod 101) → List (ZMod 101) → ZMod 101 → ZMod 101 := fun a b r => a.sum + b.sum + r
    let p : Proof (ZMod 101) (ZMod 101) (ZMod 101) := ⟨1 + 3 + 9, [3 + 4 * 2], [(7 * 1 + 3, 7 * 5 + 4)]⟩
    List.Forall₂ (fun c d => Opens g c d.1 d.2) [11] [((1 : ZMod 101), (5 : ZMod 101))] ∧
      (∃ out, verify g H [] [11] p = .ok out) ∧
      comm [1] (List.zipWith (fun z d => z.1 - H (point1 g [] [11] p.comm p.randomizers) * d.1) p.responses [(1, 5)]) 9 =
        p.comm := by
  intro g H comm p
  refine ⟨.cons (by unfold Opens; decide) .nil, ?_, by decide⟩
  refine ⟨_, (C65_accepts_iff g H [] [11] p ⟨rfl, rfl⟩).1 ?_⟩
  intro j c r s hc hr hs
  have hj : j < 1 := (List.getElem?_eq_some_iff.mp hc).1
  interval_cases j
  obtain rfl := Option.some.inj hc
  obtain rfl := Option.some.inj hr
  obtain rfl := Option.some.inj hs
  decide

end Verif.DelegatedSchnorr
