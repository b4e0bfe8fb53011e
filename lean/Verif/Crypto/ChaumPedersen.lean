import Mathlib.Algebra.BigOperators.Group.Finset.Basic
import Mathlib.Algebra.Module.BigOperators
import Verif.Crypto.Sigma

/-!
C35: equality of Pedersen commitments (`crypto/src/basic/chaum_pedersen.rs`).
-/

namespace Verif.ChaumPedersen

open Verif.Pippenger (sumOfProducts)
open Verif.Sigma (Tr Msg multiExpDefault initSigma getChallenge challengePoint)

variable {F G : Type} [Field F] [AddCommGroup G] [Module F G]

/-! ### Model -/

/-- the generators `pc_gens.B`, `pc_gens.B_blinding`, crypto/src/basic/pedersen_comm.rs:25-30 -/
structure Gens (G : Type) where
  B : G
  Bb : G

/-- models `ChaumPedersenProof`, crypto/src/basic/chaum_pedersen.rs:12-19 -/
structure Proof (F G : Type) where
  c3 : G
  c4 : G
  z1 : F
  z2 : F
  z3 : F
deriving DecidableEq

/-- models the elements of `init_chaum_pedersen`, crypto/src/basic/chaum_pedersen.rs:26-29 -/
def elems (g : Gens G) (c1 c2 : G) : List G := [0, g.B, g.Bb, c1, c2]

/-- crypto/src/basic/chaum_pedersen.rs:30 -/
def matrix : List (List Nat) := [[1, 2, 0], [1, 0, 2]]

/-- crypto/src/basic/chaum_pedersen.rs:31 -/
def rhs : List Nat := [3, 4]

/-- crypto/src/basic/chaum_pedersen.rs:28 -/
def initTr (tr : Tr F G) : Tr F G := tr ++ [.label "Chaum Pedersen"]

/-- models `chaum_pedersen_prove_eq`, crypto/src/basic/chaum_pedersen.rs:36-64 -/
def proveEq (g : Gens G) (H : Tr F G → F) (tr : Tr F G) (blindings : List F) (value : F) (com1 com2 : G × F) :
    Res (Proof F G × Tr F G) := do
  let (p, tr) ← Sigma.prove H (initTr tr) blindings (elems g com1.1 com2.1) matrix [value, com1.2, com2.2]
  let c3 ← Res.unwrap p.commitments[0]?
  let c4 ← Res.unwrap p.commitments[1]?
  let z1 ← Res.unwrap p.responses[0]?
  let z2 ← Res.unwrap p.responses[1]?
  let z3 ← Res.unwrap p.responses[2]?
  return (⟨c3, c4, z1, z2, z3⟩, tr)

/-- the sigma proof, crypto/src/basic/chaum_pedersen.rs:84-87 and 111-114 -/
def sigmaProof (p : Proof F G) : Sigma.Proof F G := ⟨[p.c3, p.c4], [p.z1, p.z2, p.z3]⟩

/-- models `chaum_pedersen_verify_eq_scalars`, crypto/src/basic/chaum_pedersen.rs:75-98 -/
def verifyEqScalars (g : Gens G) (H : Tr F G → F) (tr : Tr F G) (alphas : Nat → F) (c1 c2 : G) (p : Proof F G) :
    Res (List F × Tr F G) := do
  let (s, tr) ← Sigma.verifyScalars H (initTr tr) alphas (elems g c1 c2) matrix rhs (sigmaProof p)
  return (s.drop 1, tr)

/-- models `chaum_pedersen_verify_eq`, crypto/src/basic/chaum_pedersen.rs:102-125 -/
def verifyEq [DecidableEq G] (g : Gens G) (H : Tr F G → F) (tr : Tr F G) (alphas : Nat → F) (c1 c2 : G)
    (p : Proof F G) : Res (Tr F G) :=
  Sigma.verify multiExpDefault H (initTr tr) alphas (elems g c1 c2) matrix rhs (sigmaProof p)

/-- models `ChaumPedersenProofX`, crypto/src/basic/chaum_pedersen.rs:129-132 -/
structure ProofX (F G : Type) where
  c1_eq_c2 : Proof F G
  zero : Option (Proof F G)
deriving DecidableEq

/-- models `init_chaum_pedersen_multiple`, crypto/src/basic/chaum_pedersen.rs:134-144 -/
def initMultiple (g : Gens G) (tr : Tr F G) (cs : List G) : Tr F G :=
  initSigma tr "ChaumPedersenMultiple" [] (g.B :: g.Bb :: cs)

/-- `n` challenges in a row -/
def challenges (H : Tr F G → F) (tr : Tr F G) : Nat → List F × Tr F G
  | 0 => ([], tr)
  | n + 1 =>
    let r := challenges H (getChallenge H tr).2 n
    ((getChallenge H tr).1 :: r.1, r.2)

/-- models `get_lc_scalars`, crypto/src/basic/chaum_pedersen.rs:402-411 -/
def lcScalars (H : Tr F G → F) (tr : Tr F G) (n : Nat) : List F × Tr F G :=
  if n = 0 then ([], tr)
  else
    let r := challenges H tr (n - 1)
    (1 :: r.1, r.2)

/-- the combination of the commitments, crypto/src/basic/chaum_pedersen.rs:251-256 and 311-316 -/
def combine (a : List F) (c0 : G) (cs : List G) : G :=
  (a.zip cs).foldl (fun d p => d + p.1 • (c0 - p.2)) 0

/-- models `chaum_pedersen_prove_multiple_eq`, crypto/src/basic/chaum_pedersen.rs:147-206 -/
def proveMultiple (g : Gens G) (H : Tr F G → F) (tr : Tr F G) (bl1 bl2 : List F) (value : F) (cs : List G)
    (rs : List F) : Res (ProofX F G × Tr F G) :=
  if cs.length ≠ rs.length ∨ cs.length < 2 then .err
  else match cs, rs with
    | c0 :: c1 :: cs, r0 :: r1 :: rs => do
      let (p, tr) ← proveEq g H (initMultiple g tr (c0 :: c1 :: cs)) bl1 value (c0, r0) (c1, r1)
      if cs.length = 0 then return (⟨p, none⟩, tr)
      else do
        let (a, tr) := lcScalars H tr cs.length
        let d := combine a c0 cs
        let z := combine (G := F) a r0 rs
        let (q, tr) ← proveEq g H tr bl2 0 (d, z) (0, 0)
        return (⟨p, some q⟩, tr)
    | _, _ => .panic

/-- models the `match` on `proof.zero` for two commitments, crypto/src/basic/chaum_pedersen.rs:299-305 -/
def noZero (z : Option (Proof F G)) (tr : Tr F G) : Res (Tr F G) :=
  match z with
  | none => .ok tr
  | some _ => .err

/-- models `chaum_pedersen_verify_multiple_eq`, crypto/src/basic/chaum_pedersen.rs:280-328; `al1`, `al2` are the row
coefficients of the two checks -/
def verifyMultiple [DecidableEq G] (g : Gens G) (H : Tr F G → F) (tr : Tr F G) (al1 al2 : Nat → F) (cs : List G)
    (p : ProofX F G) : Res (Tr F G) :=
  match cs with
  | c0 :: c1 :: rest => do
    let tr ← verifyEq g H (initMultiple g tr (c0 :: c1 :: rest)) al1 c0 c1 p.c1_eq_c2
    if rest.length = 0 then noZero p.zero tr
    else match p.zero with
      | none => .err
      | some q => verifyEq g H (lcScalars H tr rest.length).2 al2 (combine (lcScalars H tr rest.length).1 c0 rest) 0 q
  | _ => .err

/-- models lines 265-273 of `chaum_pedersen_verify_multiple_eq_scalars`: joining the two scalar vectors (each of length
six) -/
def join (alpha : F) (s t : List F) : Res (List F) :=
  match s, t with
  | [b, bb, x2, x3, x4, x5], [b', bb', y2, _, y4, y5] =>
    .ok [b + alpha * b', bb + alpha * bb', x2, x3, x4, x5, alpha * y2, alpha * y4, alpha * y5]
  | _, _ => .panic

/-- the generator's samples for one instance of a batch: row coefficients of the first and second check, the coefficient
joining them, and the coefficient of the instance -/
structure Coins (F : Type) where
  al1 : Nat → F
  al2 : Nat → F
  alpha : F
  outer : F

/-- models `chaum_pedersen_verify_multiple_eq_scalars`, crypto/src/basic/chaum_pedersen.rs:222-274; fewer than two
commitments panic (indexing) -/
def verifyMultipleScalars (g : Gens G) (H : Tr F G → F) (tr : Tr F G) (r : Coins F) (cs : List G) (p : ProofX F G) :
    Res (List F × Option G) :=
  match cs with
  | c0 :: c1 :: rest => do
    let (s, tr) ← verifyEqScalars g H (initMultiple g tr (c0 :: c1 :: rest)) r.al1 c0 c1 p.c1_eq_c2
    if rest.length = 0 then
      match p.zero with
      | none => .ok (s, none)
      | some _ => .err
    else match p.zero with
      | none => .err
      | some q => do
        let a := lcScalars H tr rest.length
        let d := combine a.1 c0 rest
        let (t, _) ← verifyEqScalars g H a.2 r.al2 d 0 q
        let u ← join r.alpha s t
        return (u, some d)
  | _ => .panic

/-- models the body of the loop of `chaum_pedersen_batch_verify_multiple_eq`, crypto/src/basic/chaum_pedersen.rs:348-378:
the accumulated scalars of `B` and `B_blinding`, and the other scalars and elements -/
def batchStep (g : Gens G) (H : Tr F G → F) (tr : Tr F G) (acc : F × F × List F × List G)
    (i : (List G × ProofX F G) × Coins F) : Res (F × F × List F × List G) := do
  let (s, d) ← verifyMultipleScalars g H tr i.2 i.1.1 i.1.2
  match i.1.1, s, d, i.1.2.zero with
  | c0 :: c1 :: _, [b, bb, x2, x3, x4, x5], none, _ =>
    return (acc.1 + b * i.2.outer, acc.2.1 + bb * i.2.outer,
      acc.2.2.1 ++ [x2 * i.2.outer, x3 * i.2.outer, x4 * i.2.outer, x5 * i.2.outer],
      acc.2.2.2 ++ [c0, c1, i.1.2.c1_eq_c2.c3, i.1.2.c1_eq_c2.c4])
  | c0 :: c1 :: _, [b, bb, x2, x3, x4, x5, y6, y7, y8], some d, some q =>
    return (acc.1 + b * i.2.outer, acc.2.1 + bb * i.2.outer,
      acc.2.2.1 ++ [x2 * i.2.outer, x3 * i.2.outer, x4 * i.2.outer, x5 * i.2.outer, y6 * i.2.outer, y7 * i.2.outer,
        y8 * i.2.outer],
      acc.2.2.2 ++ [c0, c1, i.1.2.c1_eq_c2.c3, i.1.2.c1_eq_c2.c4, d, q.c3, q.c4])
  | _, _, _, _ => .panic

/-- models `chaum_pedersen_batch_verify_multiple_eq`, crypto/src/basic/chaum_pedersen.rs:334-388; the multi-scalar
multiplication of curve25519-dalek is the sum of the products -/
def batchVerify [DecidableEq G] (g : Gens G) (H : Tr F G → F) (tr : Tr F G)
    (is : List ((List G × ProofX F G) × Coins F)) : Res Unit := do
  let acc ← is.foldlM (batchStep g H tr) (0, 0, [], [])
  if sumOfProducts (acc.1 :: acc.2.1 :: acc.2.2.1) (g.B :: g.Bb :: acc.2.2.2) ≠ 0 then .err else .ok ()

/-! ### Specification -/

/-- `c` is the Pedersen commitment to `v` with blinding `r`. -/
def Opens (g : Gens G) (c : G) (v r : F) : Prop := c = v • g.B + r • g.Bb

/-- the two verification equations for the challenge `c` -/
def Equations (g : Gens G) (c1 c2 : G) (p : Proof F G) (c : F) : Prop :=
  p.z1 • g.B + p.z2 • g.Bb = c • c1 + p.c3 ∧ p.z1 • g.B + p.z3 • g.Bb = c • c2 + p.c4

/-- the point at which the challenge of an equality proof is drawn -/
def eqPoint (g : Gens G) (tr : Tr F G) (c1 c2 : G) (p : Proof F G) : Tr F G :=
  challengePoint (initTr tr) (elems g c1 c2) [p.c3, p.c4]

/-- extraction of the common value and the two blindings from two transcripts -/
def extractValue (p q : Proof F G) (c c' : F) : F := (p.z1 - q.z1) / (c - c')

/-- first blinding -/
def extractBl1 (p q : Proof F G) (c c' : F) : F := (p.z2 - q.z2) / (c - c')

/-- second blinding -/
def extractBl2 (p q : Proof F G) (c c' : F) : F := (p.z3 - q.z3) / (c - c')

/-! ### Lemmas -/

theorem valid : Sigma.Valid 5 matrix rhs := by
  refine ⟨rfl, ?_, ?_⟩ <;> decide

theorem equations_iff (g : Gens G) (c1 c2 : G) (p : Proof F G) (c : F) :
    Sigma.Equations (elems g c1 c2) matrix rhs [p.c3, p.c4] [p.z1, p.z2, p.z3] c ↔ Equations g c1 c2 p c := by
  have e0 : Sigma.lin (elems g c1 c2) [1, 2, 0] [p.z1, p.z2, p.z3] = some (p.z1 • g.B + p.z2 • g.Bb) := by
    simp [Sigma.lin, elems, Sigma.dot_cons, Sigma.dot_nil]
  have e1 : Sigma.lin (elems g c1 c2) [1, 0, 2] [p.z1, p.z2, p.z3] = some (p.z1 • g.B + p.z3 • g.Bb) := by
    simp [Sigma.lin, elems, Sigma.dot_cons, Sigma.dot_nil]
  constructor
  · intro h
    obtain ⟨x, y, h1, h2, h3⟩ := h 0 _ _ _ rfl rfl rfl
    obtain ⟨x', y', h1', h2', h3'⟩ := h 1 _ _ _ rfl rfl rfl
    rw [e0] at h1; rw [e1] at h1'
    obtain rfl := Option.some.inj h1
    obtain rfl := Option.some.inj h1'
    obtain rfl := Option.some.inj h2
    obtain rfl := Option.some.inj h2'
    exact ⟨h3, h3'⟩
  · rintro ⟨h, h'⟩ j row t com hr ht hc
    have hj : j < 2 := (List.getElem?_eq_some_iff.mp hr).1
    interval_cases j
    · obtain rfl := Option.some.inj hr
      obtain rfl := Option.some.inj ht
      obtain rfl := Option.some.inj hc
      exact ⟨_, _, e0, rfl, h⟩
    · obtain rfl := Option.some.inj hr
      obtain rfl := Option.some.inj ht
      obtain rfl := Option.some.inj hc
      exact ⟨_, _, e1, rfl, h'⟩

/-- the combination of the two defects -/
def defect (g : Gens G) (alphas : Nat → F) (c1 c2 : G) (p : Proof F G) (c : F) : G :=
  alphas 0 • (p.z1 • g.B + p.z2 • g.Bb - p.c3 - c • c1) + alphas 1 • (p.z1 • g.B + p.z3 • g.Bb - p.c4 - c • c2)

theorem scalars_dot (g : Gens G) (alphas : Nat → F) (c1 c2 : G) (p : Proof F G) (c : F) :
    sumOfProducts (Sigma.collectScalars alphas 5 matrix rhs [p.z1, p.z2, p.z3] c) (elems g c1 c2 ++ [p.c3, p.c4]) =
      defect g alphas c1 c2 p c := by
  have := Sigma.collectScalars_dot (elems g c1 c2) [p.c3, p.c4] alphas matrix rhs [p.z1, p.z2, p.z3] c
    [[g.B, g.Bb, 0], [g.B, 0, g.Bb]] [c1, c2] rfl rfl rfl rfl
  have hl : (elems g c1 c2).length = 5 := rfl
  rw [hl] at this
  rw [this]
  simp [Sigma.comb, Sigma.dot_cons, Sigma.dot_nil, defect]

theorem defect_zero_iff (g : Gens G) (c1 c2 : G) (p : Proof F G) (c : F) :
    (∀ alphas : Nat → F, defect g alphas c1 c2 p c = 0) ↔ Equations g c1 c2 p c := by
  constructor
  · intro h
    have h0 := h (fun i => if i = 0 then 1 else 0)
    have h1 := h (fun i => if i = 1 then 1 else 0)
    simp only [defect, if_true, one_smul, one_ne_zero, if_false, zero_smul, add_zero, zero_ne_one, zero_add] at h0 h1
    exact ⟨by rw [sub_sub, sub_eq_zero] at h0; rw [h0]; abel, by rw [sub_sub, sub_eq_zero] at h1; rw [h1]; abel⟩
  · rintro ⟨h, h'⟩ alphas
    unfold defect
    rw [h, h']
    module

theorem verifyScalars_ok (g : Gens G) (H : Tr F G → F) (tr : Tr F G) (alphas : Nat → F) (c1 c2 : G) (p : Proof F G) :
    Sigma.verifyScalars H (initTr tr) alphas (elems g c1 c2) matrix rhs (sigmaProof p) =
      .ok (Sigma.collectScalars alphas 5 matrix rhs [p.z1, p.z2, p.z3] (H (eqPoint g tr c1 c2 p)),
        eqPoint g tr c1 c2 p ++ [.challenge]) := rfl

theorem verifyEq_eq [DecidableEq G] (g : Gens G) (H : Tr F G → F) (tr : Tr F G) (alphas : Nat → F) (c1 c2 : G)
    (p : Proof F G) : verifyEq g H tr alphas c1 c2 p =
      if defect g alphas c1 c2 p (H (eqPoint g tr c1 c2 p)) = 0 then .ok (eqPoint g tr c1 c2 p ++ [.challenge])
      else .err := by
  unfold verifyEq Sigma.verify
  rw [verifyScalars_ok]
  simp only [Res.bind_ok]
  have hm : multiExpDefault (Sigma.collectScalars alphas 5 matrix rhs [p.z1, p.z2, p.z3] (H (eqPoint g tr c1 c2 p)))
      (elems g c1 c2 ++ (sigmaProof p).commitments) = .ok (defect g alphas c1 c2 p (H (eqPoint g tr c1 c2 p))) := by
    unfold multiExpDefault
    rw [if_pos (by rw [Sigma.collectScalars_length]; simp [rhs])]
    exact congrArg Res.ok (scalars_dot g alphas c1 c2 p _)
  rw [hm]
  simp only [Res.bind_ok]
  split <;> simp_all

/-- six scalars, and what they compute -/
theorem verifyEqScalars_eq (g : Gens G) (H : Tr F G → F) (tr : Tr F G) (alphas : Nat → F) (c1 c2 : G) (p : Proof F G) :
    ∃ b bb x2 x3 x4 x5, verifyEqScalars g H tr alphas c1 c2 p =
        .ok ([b, bb, x2, x3, x4, x5], eqPoint g tr c1 c2 p ++ [.challenge]) ∧
      b • g.B + bb • g.Bb + x2 • c1 + x3 • c2 + x4 • p.c3 + x5 • p.c4 =
        defect g alphas c1 c2 p (H (eqPoint g tr c1 c2 p)) := by
  have hl := Sigma.collectScalars_length alphas 5 matrix rhs [p.z1, p.z2, p.z3] (H (eqPoint g tr c1 c2 p))
  have hd := scalars_dot g alphas c1 c2 p (H (eqPoint g tr c1 c2 p))
  unfold verifyEqScalars
  rw [verifyScalars_ok]
  generalize Sigma.collectScalars alphas 5 matrix rhs [p.z1, p.z2, p.z3] (H (eqPoint g tr c1 c2 p)) = s at hl hd
  have hl' : s.length = 7 := hl
  match s, hl' with
  | [s0, b, bb, x2, x3, x4, x5], _ =>
    refine ⟨b, bb, x2, x3, x4, x5, rfl, ?_⟩
    rw [← hd]
    simp only [elems, List.cons_append, List.nil_append, Sigma.dot_cons, Sigma.dot_nil]
    module

/-! ### C35, two commitments -/

/-- **C35 (completeness).**  Honest openings of two commitments to the same value are accepted. -/
theorem C35_eq_complete [DecidableEq G] (g : Gens G) (H : Tr F G → F) (tr : Tr F G) (blindings : List F)
    (hb : blindings.length = 3) (alphas : Nat → F) (v r1 r2 : F) (c1 c2 : G) (h1 : Opens g c1 v r1)
    (h2 : Opens g c2 v r2) :
    ∃ p tr', proveEq g H tr blindings v (c1, r1) (c2, r2) = .ok (p, tr') ∧
      verifyEq g H tr alphas c1 c2 p = .ok tr' := by
  have hh : Sigma.Holds (elems g c1 c2) matrix rhs [v, r1, r2] := by
    refine .cons ⟨rfl, c1, rfl, ?_⟩ (.cons ⟨rfl, c2, rfl, ?_⟩ .nil)
    · simp [Sigma.lin, elems, Sigma.dot_cons, Sigma.dot_nil]; exact h1.symm
    · simp [Sigma.lin, elems, Sigma.dot_cons, Sigma.dot_nil]; exact h2.symm
  obtain ⟨proof, tr', hp, hv⟩ := Sigma.C33_complete_default_partial H (initTr tr) (elems g c1 c2) matrix rhs [v, r1, r2] blindings
    alphas (by simp [elems, rhs]) hb hh
  match blindings, hb with
  | [b1, b2, b3], _ =>
    have hr : ∃ d3 d4 y1 y2 y3, proof = ⟨[d3, d4], [y1, y2, y3]⟩ := by
      have hcoms := Sigma.proofCommitments_ok [b1, b2, b3] (elems g c1 c2) matrix [[g.B, g.Bb, 0], [g.B, 0, g.Bb]]
        (by simp [matrix]) rfl
      unfold Sigma.prove at hp
      rw [hcoms] at hp
      simp only [Res.bind_ok, getChallenge, Res.pure_eq, Res.ok.injEq, Prod.mk.injEq] at hp
      exact ⟨_, _, _, _, _, hp.1.symm⟩
    obtain ⟨d3, d4, y1, y2, y3, rfl⟩ := hr
    refine ⟨⟨d3, d4, y1, y2, y3⟩, tr', ?_, hv⟩
    unfold proveEq
    rw [hp]
    rfl

/-- **C35.**  The verifier accepts with every choice of its coefficients exactly when both equations hold. -/
theorem C35_eq_accepts_iff [DecidableEq G] (g : Gens G) (H : Tr F G → F) (tr : Tr F G) (c1 c2 : G) (p : Proof F G) :
    (∀ alphas, ∃ tr', verifyEq g H tr alphas c1 c2 p = .ok tr') ↔
      Equations g c1 c2 p (H (eqPoint g tr c1 c2 p)) := by
  rw [← defect_zero_iff]
  refine forall_congr' (fun alphas => ?_)
  rw [verifyEq_eq]
  split <;> simp_all

/-- **C35.**  If one of the two equations fails, some coefficient has at most one accepted value. -/
theorem C35_eq_wrong_accepted_rarely [DecidableEq G] (g : Gens G) (H : Tr F G → F) (tr : Tr F G) (c1 c2 : G)
    (p : Proof F G) (hne : ¬ Equations g c1 c2 p (H (eqPoint g tr c1 c2 p))) :
    ∃ j < 2, ∀ alphas alphas' tr₁ tr₂, (∀ i, i ≠ j → alphas i = alphas' i) →
      verifyEq g H tr alphas c1 c2 p = .ok tr₁ → verifyEq g H tr alphas' c1 c2 p = .ok tr₂ → alphas j = alphas' j :=
  Sigma.C34_wrong_proofs_accepted_rarely multiExpDefault H (initTr tr) (elems g c1 c2) matrix rhs (sigmaProof p)
    (fun s q hs => by
      have : s.length = 7 := hs
      unfold multiExpDefault; rw [if_pos (by omega)]) valid rfl
    (fun h => hne ((equations_iff g c1 c2 p _).mp h))

/-- **C35 (special soundness).**  Two transcripts with the same commitments and different challenges give openings of the
two commitments to a common value. -/
theorem C35_eq_special_sound (g : Gens G) (c1 c2 : G) (p q : Proof F G) (c c' : F) (h3 : p.c3 = q.c3) (h4 : p.c4 = q.c4)
    (hne : c ≠ c') (hp : Equations g c1 c2 p c) (hq : Equations g c1 c2 q c') :
    Opens g c1 (extractValue p q c c') (extractBl1 p q c c') ∧ Opens g c2 (extractValue p q c c') (extractBl2 p q c c') := by
  have hc : c - c' ≠ 0 := sub_ne_zero.mpr hne
  obtain ⟨p1, p2⟩ := hp
  obtain ⟨q1, q2⟩ := hq
  have key : ∀ (X C : G) (a b a' b' : F), a • g.B + b • g.Bb = c • X + C → a' • g.B + b' • g.Bb = c' • X + C →
      X = ((a - a') / (c - c')) • g.B + ((b - b') / (c - c')) • g.Bb := by
    intro X C a b a' b' e e'
    have hX : (c - c') • X = (a - a') • g.B + (b - b') • g.Bb := by
      have : (c - c') • X = (c • X + C) - (c' • X + C) := by module
      rw [this, ← e, ← e']; module
    rw [div_eq_inv_mul, div_eq_inv_mul, mul_smul, mul_smul, ← smul_add, ← hX, smul_smul, inv_mul_cancel₀ hc, one_smul]
  exact ⟨key c1 p.c3 _ _ _ _ p1 (by rw [h3]; exact q1), key c2 p.c4 _ _ _ _ p2 (by rw [h4]; exact q2)⟩

/-! ### C35, many commitments -/

theorem combine_eq (a : List F) (c0 : G) (cs : List G) :
    combine a c0 cs = sumOfProducts a (cs.map (c0 - ·)) := by
  unfold combine
  suffices H : ∀ acc : G, (a.zip cs).foldl (fun d p => d + p.1 • (c0 - p.2)) acc =
      acc + sumOfProducts a (cs.map (c0 - ·)) by rw [H 0, zero_add]
  induction a generalizing cs with
  | nil => intro acc; simp [Sigma.dot_nil]
  | cons x a ih => cases cs with
    | nil => intro acc; simp [Sigma.dot_nil_right]
    | cons c cs =>
      intro acc
      rw [List.zip_cons_cons, List.foldl_cons, ih, List.map_cons, Sigma.dot_cons]
      abel

theorem combine_cons (a : F) (as : List F) (c0 c : G) (cs : List G) :
    combine (a :: as) c0 (c :: cs) = a • (c0 - c) + combine as c0 cs := by
  rw [combine_eq, combine_eq, List.map_cons, Sigma.dot_cons]

theorem challenges_length (H : Tr F G → F) (tr : Tr F G) (n : Nat) : (challenges H tr n).1.length = n := by
  induction n generalizing tr with
  | zero => rfl
  | succ n ih => simp [challenges, ih]

theorem lcScalars_length (H : Tr F G → F) (tr : Tr F G) (n : Nat) : (lcScalars H tr n).1.length = n := by
  unfold lcScalars
  split
  · next h => simp [h]
  · next h => simp [challenges_length]; omega

/-- the combination of the commitments opens to zero with the combination of the blindings -/
theorem combine_opens (g : Gens G) (v r0 : F) (c0 : G) (h0 : Opens g c0 v r0) (a : List F) (cs : List G) (rs : List F)
    (h : List.Forall₂ (fun c r => Opens g c v r) cs rs) : Opens g (combine a c0 cs) 0 (combine (G := F) a r0 rs) := by
  induction h generalizing a with
  | nil => simp [combine_eq, Sigma.dot_nil_right, Opens]
  | @cons c r cs rs hc _ ih =>
    cases a with
    | nil => simp [combine_eq, Sigma.dot_nil, Opens]
    | cons x a =>
      have := ih a
      unfold Opens at *
      rw [combine_cons, combine_cons, this, h0, hc, smul_eq_mul]
      module

/-- **C35 (completeness, many commitments).**  Honest openings of two or more commitments to the same value are
accepted. -/
theorem C35_multiple_complete [DecidableEq G] (g : Gens G) (H : Tr F G → F) (tr : Tr F G) (bl1 bl2 : List F)
    (hb1 : bl1.length = 3) (hb2 : bl2.length = 3) (al1 al2 : Nat → F) (v : F) (cs : List G) (rs : List F)
    (h : List.Forall₂ (fun c r => Opens g c v r) cs rs) (hn : 2 ≤ cs.length) :
    ∃ p tr', proveMultiple g H tr bl1 bl2 v cs rs = .ok (p, tr') ∧ verifyMultiple g H tr al1 al2 cs p = .ok tr' := by
  cases h with
  | nil => simp at hn
  | @cons c0 r0 cs rs h0 h =>
    cases h with
    | nil => simp at hn
    | @cons c1 r1 cs rs h1 h =>
      have hl : cs.length = rs.length := h.length_eq
      obtain ⟨p, tr1, hp, hv⟩ := C35_eq_complete g H (initMultiple g tr (c0 :: c1 :: cs)) bl1 hb1 al1 v r0 r1 c0 c1 h0 h1
      by_cases hz : cs.length = 0
      · refine ⟨⟨p, none⟩, tr1, ?_, ?_⟩
        · unfold proveMultiple
          rw [if_neg (by simp; omega)]
          simp only [hp, Res.bind_ok, hz, if_true, Res.pure_eq]
        · unfold verifyMultiple
          simp only [hv, Res.bind_ok, hz, if_true, noZero]
      · obtain ⟨q, tr2, hq, hw⟩ := C35_eq_complete g H (lcScalars H tr1 cs.length).2 bl2 hb2 al2 0
          (combine (G := F) (lcScalars H tr1 cs.length).1 r0 rs) 0 (combine (lcScalars H tr1 cs.length).1 c0 cs) 0
          (combine_opens g v r0 c0 h0 _ cs rs h) (by simp [Opens])
        refine ⟨⟨p, some q⟩, tr2, ?_, ?_⟩
        · unfold proveMultiple
          rw [if_neg (by simp; omega)]
          simp only [hp, Res.bind_ok, hz, if_false, hq, Res.pure_eq]
        · unfold verifyMultiple
          simp only [hv, Res.bind_ok, hz, if_false, hw]

/-- **C35.**  What acceptance (with every choice of the coefficients) of a proof for three or more commitments means: the
equations of the first proof for the first two commitments, and those of the second for the combination of the
differences, with coefficients one and then challenges drawn after the first proof. -/
theorem C35_multiple_accepts_iff [DecidableEq G] (g : Gens G) (H : Tr F G → F) (tr : Tr F G) (c0 c1 : G) (rest : List G)
    (hr : rest ≠ []) (p : ProofX F G) :
    (∀ al1 al2, ∃ tr', verifyMultiple g H tr al1 al2 (c0 :: c1 :: rest) p = .ok tr') ↔
      Equations g c0 c1 p.c1_eq_c2 (H (eqPoint g (initMultiple g tr (c0 :: c1 :: rest)) c0 c1 p.c1_eq_c2)) ∧
      ∃ q, p.zero = some q ∧
        let tr1 := eqPoint g (initMultiple g tr (c0 :: c1 :: rest)) c0 c1 p.c1_eq_c2 ++ [.challenge]
        let a := lcScalars H tr1 rest.length
        Equations g (combine a.1 c0 rest) 0 q (H (eqPoint g a.2 (combine a.1 c0 rest) 0 q)) := by
  have hz : rest.length ≠ 0 := fun h => hr (List.length_eq_zero_iff.mp h)
  have step : ∀ al1 al2 : Nat → F, (∃ tr', verifyMultiple g H tr al1 al2 (c0 :: c1 :: rest) p = .ok tr') ↔
      defect g al1 c0 c1 p.c1_eq_c2 (H (eqPoint g (initMultiple g tr (c0 :: c1 :: rest)) c0 c1 p.c1_eq_c2)) = 0 ∧
      ∃ q, p.zero = some q ∧
        let tr1 := eqPoint g (initMultiple g tr (c0 :: c1 :: rest)) c0 c1 p.c1_eq_c2 ++ [.challenge]
        let a := lcScalars H tr1 rest.length
        defect g al2 (combine a.1 c0 rest) 0 q (H (eqPoint g a.2 (combine a.1 c0 rest) 0 q)) = 0 := by
    intro al1 al2
    unfold verifyMultiple
    simp only [verifyEq_eq g H (initMultiple g tr (c0 :: c1 :: rest)) al1]
    by_cases hd : defect g al1 c0 c1 p.c1_eq_c2 (H (eqPoint g (initMultiple g tr (c0 :: c1 :: rest)) c0 c1 p.c1_eq_c2)) = 0
    · rw [if_pos hd]
      simp only [Res.bind_ok, hz, if_false, hd, true_and]
      cases p.zero with
      | none => simp
      | some q =>
        simp only [Option.some.injEq, exists_eq_left']
        rw [verifyEq_eq]
        split <;> simp_all
    · rw [if_neg hd]
      simp [hd]
  simp only [step]
  rw [← defect_zero_iff]
  constructor
  · intro h
    refine ⟨fun al => (h al (fun _ => 0)).1, ?_⟩
    obtain ⟨-, q, hq, -⟩ := h (fun _ => 0) (fun _ => 0)
    refine ⟨q, hq, ?_⟩
    refine (defect_zero_iff g _ _ _ _).mp (fun al => ?_)
    obtain ⟨-, q', hq', e⟩ := h (fun _ => 0) al
    rw [hq] at hq'
    obtain rfl := Option.some.inj hq'
    exact e
  · rintro ⟨h, q, hq, e⟩ al1 al2
    exact ⟨h al1, q, hq, (defect_zero_iff g _ _ _ _).mpr e al2⟩

theorem combine_update (a a' : List F) (c0 : G) (cs : List G) (k : Nat) (c : G) (hc : cs[k]? = some c) (x x' : F)
    (hx : a[k]? = some x) (hx' : a'[k]? = some x') (h : ∀ i, i ≠ k → a[i]? = a'[i]?) :
    combine a' c0 cs - combine a c0 cs = (x' - x) • (c0 - c) := by
  induction cs generalizing a a' k with
  | nil => simp at hc
  | cons y cs ih =>
    cases a with
    | nil => simp at hx
    | cons u a => cases a' with
      | nil => simp at hx'
      | cons u' a' =>
        rw [combine_cons, combine_cons]
        cases k with
        | zero =>
          simp only [List.getElem?_cons_zero, Option.some.injEq] at hc hx hx'
          subst hc hx hx'
          have : a = a' := List.ext_getElem? (fun i => by simpa using h (i + 1) (by omega))
          subst this
          module
        | succ k =>
          have h0 := h 0 (by omega)
          simp only [List.getElem?_cons_zero, Option.some.injEq] at h0
          subst h0
          have := ih a a' k (by simpa using hc) (by simpa using hx) (by simpa using hx')
            (fun i hi => by simpa using h (i + 1) (by omega))
          rw [← this]; abel

/-- one run of the second proof: the coefficients, and two transcripts with the same commitments and different challenges -/
structure ZeroRun (F G : Type) where
  a : List F
  p : Proof F G
  q : Proof F G
  c : F
  c' : F

/-- the run is accepted for the combination of the commitments -/
def ZeroRun.Accepted (g : Gens G) (c0 : G) (rest : List G) (r : ZeroRun F G) : Prop :=
  r.a.length = rest.length ∧ r.c ≠ r.c' ∧ r.p.c3 = r.q.c3 ∧ r.p.c4 = r.q.c4 ∧
    Equations g (combine r.a c0 rest) 0 r.p r.c ∧ Equations g (combine r.a c0 rest) 0 r.q r.c'

/-- blinding extracted for the combination -/
def ZeroRun.bl (r : ZeroRun F G) : F := extractBl1 r.p r.q r.c r.c'

/-- the relation between the generators extracted from a run: coefficients of `B` and `B_blinding` -/
def ZeroRun.relation (r : ZeroRun F G) : F × F := (extractValue r.p r.q r.c r.c', extractBl2 r.p r.q r.c r.c')

/-- blinding of the `k`-th remaining commitment, from the base run and a run whose coefficients differ at `k` -/
def blAt (r0 : F) (base run : ZeroRun F G) (x x' : F) : F := r0 - (run.bl - base.bl) / (x' - x)

/-- **C35 (extraction, many commitments).**  Given the opening of the first commitment and runs of the second proof, one
with base coefficients and one with coefficients differing only at position `k`, either a run yields a non-trivial
relation `x • B + y • B_blinding = 0` between the generators, or commitment `k + 2` opens to the same value with an
explicit blinding. -/
theorem C35_multiple_extract (g : Gens G) (c0 : G) (rest : List G) (v r0 : F) (h0 : Opens g c0 v r0)
    (base run : ZeroRun F G) (hb : base.Accepted g c0 rest) (hr : run.Accepted g c0 rest) (k : Nat) (ck : G)
    (hk : rest[k]? = some ck) (x x' : F) (hx : base.a[k]? = some x) (hx' : run.a[k]? = some x') (hxx : x ≠ x')
    (hag : ∀ i, i ≠ k → base.a[i]? = run.a[i]?) :
    (∃ r ∈ [base, run], r.relation ≠ (0, 0) ∧ r.relation.1 • g.B + r.relation.2 • g.Bb = 0) ∨
      Opens g ck v (blAt r0 base run x x') := by
  obtain ⟨-, bne, b3, b4, bp, bq⟩ := hb
  obtain ⟨-, rne, s3, s4, rp, rq⟩ := hr
  obtain ⟨o1, o2⟩ := C35_eq_special_sound g _ _ base.p base.q base.c base.c' b3 b4 bne bp bq
  obtain ⟨u1, u2⟩ := C35_eq_special_sound g _ _ run.p run.q run.c run.c' s3 s4 rne rp rq
  by_cases hbr : base.relation = (0, 0)
  · by_cases hrr : run.relation = (0, 0)
    · right
      have e1 : extractValue base.p base.q base.c base.c' = 0 := congrArg Prod.fst hbr
      have e2 : extractValue run.p run.q run.c run.c' = 0 := congrArg Prod.fst hrr
      unfold Opens at o1 u1
      rw [e1, zero_smul, zero_add] at o1
      rw [e2, zero_smul, zero_add] at u1
      have hd := combine_update base.a run.a c0 rest k ck hk x x' hx hx' hag
      rw [o1, u1, ← sub_smul] at hd
      have hxd : x' - x ≠ 0 := sub_ne_zero.mpr (Ne.symm hxx)
      have : c0 - ck = ((run.bl - base.bl) / (x' - x)) • g.Bb := by
        rw [div_eq_inv_mul, mul_smul]
        show c0 - ck = (x' - x)⁻¹ • ((extractBl1 run.p run.q run.c run.c' - extractBl1 base.p base.q base.c base.c') • g.Bb)
        rw [hd, smul_smul, inv_mul_cancel₀ hxd, one_smul]
      have hck : ck = c0 - ((run.bl - base.bl) / (x' - x)) • g.Bb := by rw [← this]; abel
      unfold Opens at *
      rw [hck, h0]
      unfold blAt
      module
    · exact Or.inl ⟨run, by simp, hrr, u2.symm⟩
  · exact Or.inl ⟨base, by simp, hbr, o2.symm⟩

/-- **C35 (extraction, the commitment with coefficient one).**  Once the others are opened to the common value, one run
opens the third commitment too, or yields a relation between the generators. -/
theorem C35_multiple_extract_first (g : Gens G) (c0 c2 : G) (rest : List G) (v r0 : F) (h0 : Opens g c0 v r0)
    (rs : List F) (hrest : List.Forall₂ (fun c r => Opens g c v r) rest rs) (a : List F)
    (base : ZeroRun F G) (ha : base.a = 1 :: a) (hb : base.Accepted g c0 (c2 :: rest)) :
    (base.relation ≠ (0, 0) ∧ base.relation.1 • g.B + base.relation.2 • g.Bb = 0) ∨
      Opens g c2 v (r0 + combine (G := F) a r0 rs - base.bl) := by
  obtain ⟨-, bne, b3, b4, bp, bq⟩ := hb
  obtain ⟨o1, o2⟩ := C35_eq_special_sound g _ _ base.p base.q base.c base.c' b3 b4 bne bp bq
  by_cases hbr : base.relation = (0, 0)
  · right
    have e1 : extractValue base.p base.q base.c base.c' = 0 := congrArg Prod.fst hbr
    have hc := combine_opens g v r0 c0 h0 a rest rs hrest
    unfold Opens at *
    rw [e1, zero_smul, zero_add, ha, combine_cons, hc, one_smul] at o1
    have : c2 = c0 + ((0 : F) • g.B + combine (G := F) a r0 rs • g.Bb) - base.bl • g.Bb := by
      show c2 = c0 + ((0 : F) • g.B + combine (G := F) a r0 rs • g.Bb) - extractBl1 base.p base.q base.c base.c' • g.Bb
      rw [← o1]; abel
    rw [this, h0]
    module
  · exact Or.inl ⟨hbr, o2.symm⟩

/-- **C35.**  If commitment `k + 2`, `k ≥ 1`, differs from the first by something outside a subgroup of scalar multiples
`W` (for instance those the prover can open to zero), then, the other challenges being fixed, at most one value of the
`k`-th challenge puts the combination in `W`. -/
theorem C35_combination_exceptional (W : Submodule F G) (c0 : G) (rest : List G) (k : Nat) (ck : G)
    (hk : rest[k]? = some ck) (hw : c0 - ck ∉ W) (a a' : List F) (x x' : F) (hx : a[k]? = some x) (hx' : a'[k]? = some x')
    (hag : ∀ i, i ≠ k → a[i]? = a'[i]?) (h : combine a c0 rest ∈ W) (h' : combine a' c0 rest ∈ W) : x = x' := by
  by_contra hne
  apply hw
  have hd := combine_update a a' c0 rest k ck hk x x' hx hx' hag
  have hmem : (x' - x) • (c0 - ck) ∈ W := by rw [← hd]; exact W.sub_mem h' h
  have := W.smul_mem (x' - x)⁻¹ hmem
  rwa [smul_smul, inv_mul_cancel₀ (sub_ne_zero.mpr (Ne.symm hne)), one_smul] at this

/-! ### C35, batches -/

/-- the value a batch computes for one instance -/
def instanceDefect (g : Gens G) (H : Tr F G → F) (tr : Tr F G) (r : Coins F) (c0 c1 : G) (rest : List G)
    (p : ProofX F G) : G :=
  let tr0 := initMultiple g tr (c0 :: c1 :: rest)
  let tr1 := eqPoint g tr0 c0 c1 p.c1_eq_c2 ++ [.challenge]
  let a := lcScalars H tr1 rest.length
  let d := combine a.1 c0 rest
  defect g r.al1 c0 c1 p.c1_eq_c2 (H (eqPoint g tr0 c0 c1 p.c1_eq_c2)) +
    match p.zero with
    | none => 0
    | some q => r.alpha • defect g r.al2 d 0 q (H (eqPoint g a.2 d 0 q))

/-- the shape the verifier wants: the second proof is there exactly when there are three or more commitments -/
def Shaped (cs : List G) (p : ProofX F G) : Prop :=
  2 ≤ cs.length ∧ (cs.length = 2 ↔ p.zero = none)

/-- value of the accumulated vectors -/
def accValue (g : Gens G) (acc : F × F × List F × List G) : G :=
  sumOfProducts (acc.1 :: acc.2.1 :: acc.2.2.1) (g.B :: g.Bb :: acc.2.2.2)

theorem batchStep_ok (g : Gens G) (H : Tr F G → F) (tr : Tr F G) (acc : F × F × List F × List G)
    (hacc : acc.2.2.1.length = acc.2.2.2.length) (c0 c1 : G) (rest : List G) (p : ProofX F G) (r : Coins F)
    (hs : Shaped (c0 :: c1 :: rest) p) :
    ∃ acc', batchStep g H tr acc ((c0 :: c1 :: rest, p), r) = .ok acc' ∧ acc'.2.2.1.length = acc'.2.2.2.length ∧
      accValue g acc' = accValue g acc + r.outer • instanceDefect g H tr r c0 c1 rest p := by
  obtain ⟨b, bb, x2, x3, x4, x5, he, hd⟩ := verifyEqScalars_eq g H (initMultiple g tr (c0 :: c1 :: rest)) r.al1 c0 c1
    p.c1_eq_c2
  have hsh := hs.2
  simp only [List.length_cons] at hsh
  cases hz : p.zero with
  | none =>
    have hr : rest.length = 0 := by have := hsh.mpr hz; omega
    have hv : verifyMultipleScalars g H tr r (c0 :: c1 :: rest) p = .ok ([b, bb, x2, x3, x4, x5], none) := by
      unfold verifyMultipleScalars
      simp only [he, Res.bind_ok, hr, if_true, hz]
    refine ⟨(acc.1 + b * r.outer, acc.2.1 + bb * r.outer,
      acc.2.2.1 ++ [x2 * r.outer, x3 * r.outer, x4 * r.outer, x5 * r.outer],
      acc.2.2.2 ++ [c0, c1, p.c1_eq_c2.c3, p.c1_eq_c2.c4]), ?_, ?_, ?_⟩
    · unfold batchStep
      simp only [hv, Res.bind_ok]
      rfl
    · simp [hacc]
    · unfold accValue instanceDefect
      simp only [hz, add_zero]
      rw [← hd]
      simp only [Sigma.dot_cons]
      rw [Sigma.dot_append _ _ _ _ hacc]
      simp only [Sigma.dot_cons, Sigma.dot_nil]
      module
  | some q =>
    have hr : rest.length ≠ 0 := by
      intro h0
      have := hsh.mp (by omega)
      rw [hz] at this
      cases this
    have hlet : ∃ tr1, tr1 = eqPoint g (initMultiple g tr (c0 :: c1 :: rest)) c0 c1 p.c1_eq_c2 ++ [Msg.challenge (F := F)] :=
      ⟨_, rfl⟩
    obtain ⟨tr1, htr1⟩ := hlet
    obtain ⟨b', bb', y2, y3, y4, y5, he', hd'⟩ := verifyEqScalars_eq g H (lcScalars H tr1 rest.length).2 r.al2
      (combine (lcScalars H tr1 rest.length).1 c0 rest) 0 q
    have hv : verifyMultipleScalars g H tr r (c0 :: c1 :: rest) p =
        .ok ([b + r.alpha * b', bb + r.alpha * bb', x2, x3, x4, x5, r.alpha * y2, r.alpha * y4, r.alpha * y5],
          some (combine (lcScalars H tr1 rest.length).1 c0 rest)) := by
      unfold verifyMultipleScalars
      simp only [he, Res.bind_ok, hr, if_false, hz, ← htr1, he', join, Res.pure_eq]
    refine ⟨(acc.1 + (b + r.alpha * b') * r.outer, acc.2.1 + (bb + r.alpha * bb') * r.outer,
      acc.2.2.1 ++ [x2 * r.outer, x3 * r.outer, x4 * r.outer, x5 * r.outer, r.alpha * y2 * r.outer,
        r.alpha * y4 * r.outer, r.alpha * y5 * r.outer],
      acc.2.2.2 ++ [c0, c1, p.c1_eq_c2.c3, p.c1_eq_c2.c4, combine (lcScalars H tr1 rest.length).1 c0 rest, q.c3, q.c4]),
      ?_, ?_, ?_⟩
    · unfold batchStep
      simp only [hv, Res.bind_ok, hz]
      rfl
    · simp [hacc]
    · unfold accValue instanceDefect
      simp only [hz, ← htr1]
      rw [← hd, ← hd']
      simp only [Sigma.dot_cons]
      rw [Sigma.dot_append _ _ _ _ hacc]
      simp only [Sigma.dot_cons, Sigma.dot_nil]
      module

/-- the value a batch computes for an instance, by cases on the number of commitments -/
def instDefect (g : Gens G) (H : Tr F G → F) (tr : Tr F G) (i : List G × ProofX F G) (r : Coins F) : G :=
  match i.1 with
  | c0 :: c1 :: rest => instanceDefect g H tr r c0 c1 rest i.2
  | _ => 0

/-- the value a batch computes -/
def batchSum (g : Gens G) (H : Tr F G → F) (tr : Tr F G) : List ((List G × ProofX F G) × Coins F) → G
  | [] => 0
  | i :: is => i.2.outer • instDefect g H tr i.1 i.2 + batchSum g H tr is

theorem batchSum_append (g : Gens G) (H : Tr F G → F) (tr : Tr F G) (a b : List ((List G × ProofX F G) × Coins F)) :
    batchSum g H tr (a ++ b) = batchSum g H tr a + batchSum g H tr b := by
  induction a with
  | nil => simp [batchSum]
  | cons i a ih => simp only [List.cons_append, batchSum, ih]; abel

theorem batchVerify_eq [DecidableEq G] (g : Gens G) (H : Tr F G → F) (tr : Tr F G)
    (is : List ((List G × ProofX F G) × Coins F)) (hs : ∀ i ∈ is, Shaped i.1.1 i.1.2) :
    batchVerify g H tr is = if batchSum g H tr is = 0 then .ok () else .err := by
  have fold : ∀ acc : F × F × List F × List G, acc.2.2.1.length = acc.2.2.2.length →
      ∃ acc', is.foldlM (batchStep g H tr) acc = .ok acc' ∧ accValue g acc' = accValue g acc + batchSum g H tr is := by
    induction is with
    | nil => intro acc _; exact ⟨acc, rfl, by simp [batchSum]⟩
    | cons i is ih =>
      intro acc hacc
      obtain ⟨⟨cs, p⟩, r⟩ := i
      have hsh := hs _ List.mem_cons_self
      match cs, hsh with
      | c0 :: c1 :: rest, hsh =>
        obtain ⟨acc1, h1, h2, h3⟩ := batchStep_ok g H tr acc hacc c0 c1 rest p r hsh
        obtain ⟨acc2, h4, h5⟩ := ih (fun i hi => hs i (List.mem_cons_of_mem _ hi)) acc1 h2
        refine ⟨acc2, ?_, ?_⟩
        · rw [List.foldlM_cons, h1, Res.bind_ok, h4]
        · rw [h5, h3]
          simp only [batchSum, instDefect]
          abel
      | [_], hsh => exact absurd hsh.1 (by simp)
      | [], hsh => exact absurd hsh.1 (by simp)
  obtain ⟨acc', h1, h2⟩ := fold (0, 0, [], []) rfl
  unfold batchVerify
  rw [h1]
  simp only [Res.bind_ok]
  have : sumOfProducts (acc'.1 :: acc'.2.1 :: acc'.2.2.1) (g.B :: g.Bb :: acc'.2.2.2) = batchSum g H tr is := by
    have e : accValue g ((0 : F), (0 : F), ([] : List F), ([] : List G)) = 0 := by
      simp [accValue, Sigma.dot_cons, Sigma.dot_nil]
    rw [e, zero_add] at h2
    exact h2
  rw [this]
  split <;> simp_all

theorem verifyMultiple_iff [DecidableEq G] (g : Gens G) (H : Tr F G → F) (tr : Tr F G) (cs : List G) (p : ProofX F G)
    (hs : Shaped cs p) :
    (∀ al1 al2, ∃ tr', verifyMultiple g H tr al1 al2 cs p = .ok tr') ↔ ∀ r : Coins F, instDefect g H tr (cs, p) r = 0 := by
  match cs, hs with
  | [], hs => exact absurd hs.1 (by simp)
  | [_], hs => exact absurd hs.1 (by simp)
  | c0 :: c1 :: rest, hs =>
    by_cases hr : rest = []
    · subst hr
      have hz : p.zero = none := hs.2.mp rfl
      have step : ∀ al1 al2 : Nat → F, (∃ tr', verifyMultiple g H tr al1 al2 [c0, c1] p = .ok tr') ↔
          defect g al1 c0 c1 p.c1_eq_c2 (H (eqPoint g (initMultiple g tr [c0, c1]) c0 c1 p.c1_eq_c2)) = 0 := by
        intro al1 al2
        unfold verifyMultiple
        simp only [verifyEq_eq g H (initMultiple g tr [c0, c1]) al1]
        split
        · next h => simp [h, noZero, hz]
        · next h => simp [h]
      simp only [step]
      have e : ∀ r : Coins F, instDefect g H tr ([c0, c1], p) r =
          defect g r.al1 c0 c1 p.c1_eq_c2 (H (eqPoint g (initMultiple g tr [c0, c1]) c0 c1 p.c1_eq_c2)) := by
        intro r; simp [instDefect, instanceDefect, hz]
      simp only [e]
      constructor
      · intro h r; exact h r.al1 r.al2
      · intro h al1 al2; exact h ⟨al1, al2, 0, 0⟩
    · rw [C35_multiple_accepts_iff g H tr c0 c1 rest hr p]
      have hz : p.zero ≠ none := by
        intro h
        have := hs.2.mpr h
        simp only [List.length_cons] at this
        exact hr (List.length_eq_zero_iff.mp (by omega))
      obtain ⟨q, hq⟩ := Option.ne_none_iff_exists'.mp hz
      rw [← defect_zero_iff]
      simp only [hq, Option.some.injEq, exists_eq_left', instDefect, instanceDefect]
      rw [← defect_zero_iff]
      constructor
      · rintro ⟨h1, h2⟩ r
        rw [h1, h2]; simp
      · intro h
        have h1 : ∀ al : Nat → F, defect g al c0 c1 p.c1_eq_c2
            (H (eqPoint g (initMultiple g tr (c0 :: c1 :: rest)) c0 c1 p.c1_eq_c2)) = 0 := by
          intro al
          have := h ⟨al, fun _ => 0, 0, 0⟩
          simpa using this
        refine ⟨h1, fun al => ?_⟩
        have := h ⟨fun _ => 0, al, 1, 0⟩
        rw [h1, zero_add, one_smul] at this
        exact this

/-- **C35 (shape).**  A proof without the second part for three or more commitments, or with a second part for two, or for
fewer than two commitments is never accepted, neither alone nor in a batch. -/
theorem C35_shape_required [DecidableEq G] (g : Gens G) (H : Tr F G → F) (tr : Tr F G) (cs : List G) (p : ProofX F G)
    (hs : ¬ Shaped cs p) : (∀ al1 al2 tr', verifyMultiple g H tr al1 al2 cs p ≠ .ok tr') ∧
    ∀ pre post (r : Coins F), batchVerify g H tr (pre ++ ((cs, p), r) :: post) ≠ .ok () := by
  have key : (∀ al1 al2 tr', verifyMultiple g H tr al1 al2 cs p ≠ .ok tr') ∧
      ∀ (r : Coins F) v, verifyMultipleScalars g H tr r cs p ≠ .ok v := by
    match cs, hs with
    | [], _ => exact ⟨fun _ _ _ h => (nomatch h), fun _ _ h => (nomatch h)⟩
    | [_], _ => exact ⟨fun _ _ _ h => (nomatch h), fun _ _ h => (nomatch h)⟩
    | c0 :: c1 :: rest, hs =>
      have hz : (rest.length = 0 ∧ ∃ q, p.zero = some q) ∨ (rest.length ≠ 0 ∧ p.zero = none) := by
        by_contra hcon
        apply hs
        unfold Shaped
        simp only [List.length_cons]
        refine ⟨by omega, fun h => ?_, fun h => ?_⟩
        · by_contra hne
          exact hcon (.inl ⟨by omega, Option.ne_none_iff_exists'.mp hne⟩)
        · by_contra hne
          exact hcon (.inr ⟨by omega, h⟩)
      constructor
      · intro al1 al2 tr' h
        unfold verifyMultiple at h
        obtain ⟨tr1, -, h⟩ := Res.bind_eq_ok.mp h
        rcases hz with ⟨h0, q, hq⟩ | ⟨h0, hq⟩
        · simp [h0, noZero, hq] at h
        · simp [h0, hq] at h
      · intro r v h
        unfold verifyMultipleScalars at h
        obtain ⟨⟨s, tr1⟩, -, h⟩ := Res.bind_eq_ok.mp h
        rcases hz with ⟨h0, q, hq⟩ | ⟨h0, hq⟩
        · simp [h0, hq] at h
        · simp [h0, hq] at h
  refine ⟨key.1, fun pre post r h => ?_⟩
  unfold batchVerify at h
  obtain ⟨acc, h, -⟩ := Res.bind_eq_ok.mp h
  rw [List.foldlM_append] at h
  obtain ⟨acc1, -, h⟩ := Res.bind_eq_ok.mp h
  rw [List.foldlM_cons] at h
  obtain ⟨acc2, h, -⟩ := Res.bind_eq_ok.mp h
  unfold batchStep at h
  obtain ⟨v, h, -⟩ := Res.bind_eq_ok.mp h
  exact key.2 _ _ h

/-- **C35 (batches).**  A batch is accepted with every choice of the verifier's coefficients exactly when every instance is
accepted on its own with every choice. -/
theorem C35_batch_iff [DecidableEq G] (g : Gens G) (H : Tr F G → F) (tr : Tr F G) (ins : List (List G × ProofX F G)) :
    (∀ coins : List (Coins F), coins.length = ins.length → batchVerify g H tr (ins.zip coins) = .ok ()) ↔
      ∀ i ∈ ins, ∀ al1 al2, ∃ tr', verifyMultiple g H tr al1 al2 i.1 i.2 = .ok tr' := by
  by_cases hs : ∀ i ∈ ins, Shaped i.1 i.2
  swap
  · push Not at hs
    obtain ⟨i, hi, hn⟩ := hs
    obtain ⟨h1, h2⟩ := C35_shape_required g H tr i.1 i.2 hn
    refine ⟨fun h => ?_, fun h => ?_⟩
    · obtain ⟨a, b, rfl⟩ := List.append_of_mem hi
      have := h (List.replicate (a ++ i :: b).length ⟨fun _ => 0, fun _ => 0, 0, 0⟩) (by simp)
      rw [List.length_append, List.replicate_add, List.zip_append (by simp), List.length_cons, List.replicate_succ, List.zip_cons_cons] at this
      exact absurd this (h2 _ _ _)
    · obtain ⟨tr', h⟩ := h i hi (fun _ => 0) (fun _ => 0)
      exact absurd h (h1 _ _ _)
  have e : ∀ coins : List (Coins F), batchVerify g H tr (ins.zip coins) = .ok () ↔
      batchSum g H tr (ins.zip coins) = 0 := by
    intro coins
    rw [batchVerify_eq g H tr _ (fun i hi => hs i.1 (List.of_mem_zip (a := i.1) (b := i.2) hi).1)]
    split <;> simp_all
  simp only [e]
  have e2 : (∀ i ∈ ins, ∀ al1 al2, ∃ tr', verifyMultiple g H tr al1 al2 i.1 i.2 = .ok tr') ↔
      ∀ i ∈ ins, ∀ r : Coins F, instDefect g H tr i r = 0 :=
    forall₂_congr (fun i hi => verifyMultiple_iff g H tr i.1 i.2 (hs i hi))
  rw [e2]
  clear e e2 hs
  constructor
  · intro h
    induction ins with
    | nil => intro i hi; simp at hi
    | cons j ins ih =>
      intro i hi r
      have hzero : ∀ l : List (List G × ProofX F G),
          batchSum g H tr (l.zip (List.replicate l.length (⟨fun _ => 0, fun _ => 0, 0, 0⟩ : Coins F))) = 0 := by
        intro l
        induction l with
        | nil => rfl
        | cons x l ihl => simp [List.replicate_succ, batchSum, ihl]
      rcases List.mem_cons.mp hi with rfl | hi
      · have := h (⟨r.al1, r.al2, r.alpha, 1⟩ :: List.replicate ins.length ⟨fun _ => 0, fun _ => 0, 0, 0⟩) (by simp)
        simp only [List.zip_cons_cons, batchSum, one_smul, hzero, add_zero] at this
        have e3 : instDefect g H tr i r = instDefect g H tr i ⟨r.al1, r.al2, r.alpha, 1⟩ := rfl
        rw [e3]; exact this
      · refine ih (fun coins hc => ?_) i hi r
        have := h (⟨fun _ => 0, fun _ => 0, 0, 0⟩ :: coins) (by simp [hc])
        simpa [batchSum] using this
  · intro h coins hl
    induction ins generalizing coins with
    | nil => simp [batchSum]
    | cons j ins ih => cases coins with
      | nil => simp at hl
      | cons r coins =>
        simp only [List.zip_cons_cons, batchSum]
        rw [h j List.mem_cons_self r, ih (fun i hi => h i (List.mem_cons_of_mem _ hi)) coins (by simpa using hl)]
        simp

/-- **C35 (batches).**  With an instance whose own combination is not zero, at most one value of its coefficient is
accepted, everything else being fixed. -/
theorem C35_batch_wrong_accepted_rarely [DecidableEq G] (g : Gens G) (H : Tr F G → F) (tr : Tr F G)
    (pre post : List ((List G × ProofX F G) × Coins F)) (i : List G × ProofX F G) (r : Coins F) (o o' : F)
    (hs : ∀ j ∈ pre ++ (i, r) :: post, Shaped j.1.1 j.1.2) (hne : instDefect g H tr i r ≠ 0)
    (h : batchVerify g H tr (pre ++ (i, { r with outer := o }) :: post) = .ok ())
    (h' : batchVerify g H tr (pre ++ (i, { r with outer := o' }) :: post) = .ok ()) : o = o' := by
  have hz : ∀ o : F, batchVerify g H tr (pre ++ (i, { r with outer := o }) :: post) = .ok () →
      batchSum g H tr pre + (o • instDefect g H tr i r + batchSum g H tr post) = 0 := by
    intro o ho
    rw [batchVerify_eq] at ho
    · rw [batchSum_append] at ho
      have e : batchSum g H tr ((i, { r with outer := o }) :: post) =
          o • instDefect g H tr i r + batchSum g H tr post := rfl
      rw [e] at ho
      by_contra hcon
      rw [if_neg hcon] at ho
      cases ho
    · intro j hj
      rcases List.mem_append.mp hj with hj | hj
      · exact hs j (List.mem_append_left _ hj)
      · rcases List.mem_cons.mp hj with rfl | hj
        · exact hs (i, r) (by simp)
        · exact hs j (by simp [hj])
  have e := (hz o h).trans (hz o' h').symm
  rw [add_right_inj, add_left_inj] at e
  have : (o - o') • instDefect g H tr i r = 0 := by rw [sub_smul, e, sub_self]
  rcases smul_eq_zero.mp this with h | h
  · exact sub_eq_zero.mp h
  · exact absurd h hne

/-- A batch whose first instance has fewer than two commitments panics, where single verification returns an error. -/
theorem C35_batch_short_panics [DecidableEq G] (g : Gens G) (H : Tr F G → F) (tr : Tr F G) (cs : List G)
    (hcs : cs.length < 2) (p : ProofX F G) (r : Coins F) (is : List ((List G × ProofX F G) × Coins F)) :
    batchVerify g H tr (((cs, p), r) :: is) = .panic ∧ verifyMultiple g H tr r.al1 r.al2 cs p = .err := by
  match cs, hcs with
  | [], _ => exact ⟨rfl, rfl⟩
  | [_], _ => exact ⟨rfl, rfl⟩

/-! ### Concrete cases -/

section Examples

open Verif.Sigma

/-- generators 1 and 7 of the group of order 101 -/
abbrev exGens : Gens (ZMod 101) := ⟨1, 7⟩

/-- a proof with a second part for two commitments is not of the right shape, nor one without it for three -/
example (p : Proof (ZMod 101) (ZMod 101)) : ¬ Shaped [31, 38] ⟨p, some p⟩ ∧ ¬ Shaped [31, 38, 45] ⟨p, none⟩ := by
  constructor <;> simp [Shaped]

example : Opens (F := ZMod 101) exGens 31 3 4 ∧ Opens (F := ZMod 101) exGens 38 3 5 := by
  constructor <;> (unfold Opens; decide +kernel)

/-- three commitments to 3, proved and verified -/
example : ∃ p tr', proveMultiple (F := ZMod 101) exGens (fun tr => tr.length) [] [5, 6, 8] [9, 10, 11] 3 [31, 38, 45]
      [4, 5, 6] = .ok (p, tr') ∧
    verifyMultiple (F := ZMod 101) exGens (fun tr => tr.length) [] (fun i => i + 3) (fun i => i + 8) [31, 38, 45] p = .ok tr' :=
  C35_multiple_complete exGens _ [] [5, 6, 8] [9, 10, 11] rfl rfl _ _ 3 [31, 38, 45] [4, 5, 6]
    (.cons (by unfold Opens; decide +kernel) (.cons (by unfold Opens; decide +kernel)
      (.cons (by unfold Opens; decide +kernel) .nil))) (by simp)

/-- two runs for the combination with coefficients (1, 2) and (1, 3), the three remaining commitments opening to 3 -/
example : ∃ base run : ZeroRun (ZMod 101) (ZMod 101),
    base.Accepted exGens 31 [38, 45] ∧ run.Accepted exGens 31 [38, 45] ∧ base.a = [1, 2] ∧ run.a = [1, 3] ∧
    base.relation = (0, 0) ∧ run.relation = (0, 0) := by
  refine ⟨⟨[1, 2], ⟨5 + 7 * 6, 5 + 7 * 8, 5, -5 * 2 + 6, 8⟩, ⟨5 + 7 * 6, 5 + 7 * 8, 5, -5 * 3 + 6, 8⟩, 2, 3⟩,
    ⟨[1, 3], ⟨5 + 7 * 6, 5 + 7 * 8, 5, -7 * 2 + 6, 8⟩, ⟨5 + 7 * 6, 5 + 7 * 8, 5, -7 * 3 + 6, 8⟩, 2, 3⟩,
    ?_, ?_, rfl, rfl, ?_, ?_⟩
  · unfold ZeroRun.Accepted Equations; decide +kernel
  · unfold ZeroRun.Accepted Equations; decide +kernel
  · decide +kernel
  · decide +kernel

end Examples

end Verif.ChaumPedersen
