import Mathlib.Algebra.Module.Basic
import Verif.Poly.Props
import Verif.Poly.Transcript
import Verif.Crypto.AnonCreds

/-!
Model of plonk/src/poly_commit/kzg_poly_com.rs and of the provided methods of plonk/src/poly_commit/pcs.rs.
-/

namespace Verif.Poly

open Verif.AnonCreds (Pairing)

variable {F G1 G2 Gt : Type} [Field F] [DecidableEq F] [AddCommGroup G1] [Module F G1] [AddCommGroup G2] [Module F G2]
  [AddCommGroup Gt] [Module F Gt] [DecidableEq Gt]

/-- models `KZGCommitmentScheme`, kzg_poly_com.rs:111-117 -/
structure Params (G1 G2 : Type) where
  group1 : List G1
  group2 : List G2

/-- the loop of kzg_poly_com.rs:133-136 -/
def powersLoop (s : F) : Nat → G1 → List G1
  | 0, _ => []
  | n + 1, e => e :: powersLoop s n (s • e)

/-- models `KZGCommitmentScheme::new`, kzg_poly_com.rs:126-147, for the drawn secret `s` -/
def setup (P : Pairing F G1 G2 Gt) (maxDegree : Nat) (s : F) : Params G1 G2 where
  group1 := powersLoop s (maxDegree + 1) P.base1
  group2 := [P.base2, s • P.base2]

/-- models `max_degree`, kzg_poly_com.rs:210-212 (`len() - 1` underflows for empty parameters, which no function builds) -/
def maxDegree (pp : Params G1 G2) : Nat := pp.group1.length - 1

/-- models `commit`, kzg_poly_com.rs:214-235; `msm` stands for `BLSG1::multi_exp_unsafe`, C69 -/
def commit (msm : List F → List G1 → Res G1) (pp : Params G1 G2) (p : List F) : Res G1 :=
  if degree p + 1 > pp.group1.length then .err
  else msm p (pp.group1.take (degree p + 1))

/-- models `apply_blind_factors`, kzg_poly_com.rs:241-255; an index out of range panics -/
def applyBlindFactors (pp : Params G1 G2) (zeroing : Nat) : List F → Nat → G1 → Res G1
  | [], _, cm => .ok cm
  | b :: bs, i, cm =>
    match pp.group1[i]?, pp.group1[zeroing + i]? with
    | some gi, some gz => applyBlindFactors pp zeroing bs (i + 1) (cm + b • gi + (-b) • gz)
    | _, _ => .panic

/-- `.unwrap()` on a `Result` -/
def unwrapRes {α : Type} : Res α → Res α
  | .ok a => .ok a
  | _ => .panic

/-- models `prove`, kzg_poly_com.rs:257-291 -/
def prove (msm : List F → List G1 → Res G1) (pp : Params G1 G2) (p : List F) (x : F) (bound : Nat) : Res G1 :=
  let ev := eval p x
  if degree p > bound then .err
  else do
    let (q, r) ← divRem (sub p (fromCoefs [ev])) (fromCoefs [-x, 1])
    let z ← isZero r
    if z then unwrapRes (commit msm pp q) else .err

/-- models `verify`, kzg_poly_com.rs:293-322 -/
def verify (P : Pairing F G1 G2 Gt) (pp : Params G1 G2) (cm : G1) (point ev : F) (proof : G1) : Res Unit :=
  match pp.group1[0]?, pp.group2[0]?, pp.group2[1]? with
  | some g10, some g20, some g21 =>
    let left := if ev = 0 then P.e cm g20 else P.e (cm - ev • g10) g20
    let right := P.e proof (g21 - point • g20)
    if left = right then .ok () else .err
  | _, _, _ => .panic

/-- the loop of `batch_prove`, pcs.rs:118-125 -/
def batchProveLoop (point alpha : F) : List (List F) → List F → F → List F
  | [], h, _ => h
  | p :: ps, h, m =>
    batchProveLoop point alpha ps (add h (mulScalar (sub p (fromCoefs [eval p point])) m)) (m * alpha)

/-- models `batch_prove`, pcs.rs:101-134, with the transcript after it -/
def batchProve (H : Tr F G1 → Nat → F) (msm : List F → List G1 → Res G1) (pp : Params G1 G2) (tr : Tr F G1) (polys : List (List F))
    (point : F) (bound : Nat) : Res (G1 × Tr F G1) :=
  if polys.length = 0 then .panic
  else do
    let (alpha, tr) := challengeField H (initBatchEval tr bound point) "alpha"
    let h := batchProveLoop point alpha polys zeroPoly 1
    let (q, r) ← divRem h (fromZeroes [point])
    let z ← isZero r
    if z then do
      let cm ← commit msm pp q
      pure (cm, tr)
    else .err

omit [DecidableEq F] in
/-- the loop of `batch`, pcs.rs:151-155: the values are zipped with the commitments, the longer list is cut off -/
def batchLoop (alpha : F) : List F → List G1 → F → G1 × F → G1 × F
  | ev :: evs, cm :: cms, m, acc => batchLoop alpha evs cms (m * alpha) (acc.1 + m • cm, acc.2 + ev * m)
  | _, _, _, acc => acc

omit [DecidableEq F] in
/-- models `batch`, pcs.rs:137-157 -/
def batch (H : Tr F G1 → Nat → F) (tr : Tr F G1) (cms : List G1) (bound : Nat) (point : F) (evals : List F) :
    (G1 × F) × Tr F G1 :=
  let (alpha, tr) := challengeField H (initBatchEval tr bound point) "alpha"
  (batchLoop alpha evals cms 1 (0, 0), tr)

/-- models `batch_verify`, pcs.rs:160-181 -/
def batchVerify (H : Tr F G1 → Nat → F) (P : Pairing F G1 G2 Gt) (pp : Params G1 G2) (tr : Tr F G1) (cms : List G1)
    (bound : Nat) (point : F) (values : List F) (proof : G1) : Res Unit :=
  let ((cm, ev), _) := batch H tr cms bound point values
  verify P pp cm point ev proof

omit [DecidableEq F] in
/-- the loop of `batch_verify_diff_points`, kzg_poly_com.rs:355-365, on the four sums; the lists have equal lengths -/
def diffPointsLoop (challenge : F) : List G1 → List F → List F → List G1 → F → G1 × G1 × F × G1 → G1 × G1 × F × G1
  | pf :: pfs, x :: xs, v :: vs, cm :: cms, c, (left, right, val, comm) =>
    let new := c • pf
    diffPointsLoop challenge pfs xs vs cms (c * challenge) (left + new, right + x • new, val + v * c, comm + c • cm)
  | _, _, _, _, _, acc => acc

/-- models `batch_verify_diff_points`, kzg_poly_com.rs:324-373 -/
def batchVerifyDiffPoints (P : Pairing F G1 G2 Gt) (pp : Params G1 G2) (cms : List G1) (points evals : List F)
    (proofs : List G1) (challenge : F) : Res Unit :=
  if proofs.length = 0 ∨ proofs.length ≠ points.length ∨ proofs.length ≠ evals.length ∨ proofs.length ≠ cms.length then .panic
  else match pp.group1[0]?, pp.group2[0]?, pp.group2[1]? with
  | some g10, some g20, some g21 =>
    match proofs, points, evals, cms with
    | pf :: pfs, x :: xs, v :: vs, cm :: cms =>
      let r := diffPointsLoop challenge pfs xs vs cms challenge (pf, x • pf, v, cm)
      if P.e r.1 g21 = P.e (r.2.1 - r.2.2.1 • g10 + r.2.2.2) g20 then .ok () else .err
    | _, _, _, _ => .panic
  | _, _, _ => .panic

/-- models `shrink_to_verifier_only`, kzg_poly_com.rs:375-383 -/
def shrink (pp : Params G1 G2) : Res (Params G1 G2) :=
  match pp.group1[0]?, pp.group2[0]?, pp.group2[1]? with
  | some g10, some g20, some g21 => .ok ⟨[g10], [g20, g21]⟩
  | _, _, _ => .panic

end Verif.Poly
