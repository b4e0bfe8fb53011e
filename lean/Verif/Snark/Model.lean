import Mathlib.Data.Nat.Find
import Verif.Poly.Kzg
import Verif.Plonk.Turbo
import Verif.Poly.Fft

/-!
Model of the PLONK proof system: plonk/src/plonk/{transcript, helpers, indexer, prover, verifier}.rs, over the KZG scheme of
`Verif/Poly/Kzg.lean` and the constraint systems of `Verif/Plonk/Turbo.lean` (five wires, thirteen selectors).

Random values are arguments.  `x.pow(&[n])` is `x ^ n` (see C30).  The `parallel` feature of plonk/Cargo.toml replaces two
functions; both versions are modelled.
-/

namespace Verif.Snark

open Verif.Poly Verif.Plonk
open Verif.AnonCreds (Pairing)

/-! ### Data -/

/-- models `PlonkProof`, indexer.rs:15-32 -/
structure Proof (C F : Type) where
  cmW : List C
  cmT : List C
  cmZ : C
  /-- `w_polys_eval_zeta` -/
  wEv : List F
  /-- `z_eval_zeta_omega` -/
  zEv : F
  /-- `s_polys_eval_zeta` -/
  sEv : List F
  /-- `opening_witness_zeta` -/
  wit : C
  /-- `opening_witness_zeta_omega` -/
  witOmega : C

/-- models `PlonkVerifierParams`, indexer.rs:92-109 -/
structure VK (C F : Type) where
  cmQ : List C
  cmS : List C
  cmQb : C
  k : List F
  root : F
  csSize : Nat
  /-- `public_vars_constraint_indices` -/
  pubCons : List Nat
  /-- `lagrange_constants` -/
  lagrange : List F

/-- models `PlonkProverParams`, indexer.rs:40-69; `l1_coefs` and `z_h_coefs` are not used after the indexer and left out -/
structure PK (C F : Type) where
  qPolys : List (List F)
  sPolys : List (List F)
  qbPoly : List F
  vk : VK C F
  group : List F
  cosetQuotient : List F
  rootM : F
  l1Coset : List F
  zhInvCoset : List F
  qCoset : List (List F)
  sCoset : List (List F)
  qbCoset : List F

/-- models `PlonkChallenges`, helpers.rs:33-121, with all five challenges inserted -/
structure Challenges (F : Type) where
  beta : F
  gamma : F
  alpha : F
  zeta : F
  u : F

/-- indexing a vector: a panic when out of range -/
def index {α : Type} (l : List α) (i : Nat) : Res α := Res.unwrap l[i]?

variable {F G1 G2 Gt : Type} [Field F] [DecidableEq F] [AddCommGroup G1] [Module F G1] [AddCommGroup G2] [Module F G2]
  [AddCommGroup Gt] [Module F Gt] [DecidableEq Gt]

/-- `.inv().unwrap()` -/
def invUnwrap (x : F) : Res F := if x = 0 then .panic else .ok x⁻¹

/-! ### Transcript, plonk/src/plonk/transcript.rs -/

/-- merlin and ChaCha: for every state of the transcript the stream of field elements drawn from the generator seeded by the
challenge.  `live` says that the loop of transcript.rs:41-47 ends: the stream leaves the group of `n`-th roots of unity. -/
structure Oracle (F C : Type) [Field F] (n : Nat) where
  draw : Tr F C → Nat → F
  live : ∀ tr, ∃ i, draw tr i ^ n ≠ 1

omit [DecidableEq F] [AddCommGroup G1] [Module F G1] in
/-- models `transcript_init_plonk`, transcript.rs:8-30; `cm_qb` is not absorbed -/
def initPlonk (tr : Tr F G1) (vk : VK G1 F) (pi : List F) : Tr F G1 :=
  tr ++ [.message "New Domain" "PLONK", .u64 "CS size" vk.csSize, .message "field size" ""]
    ++ vk.cmQ.map .commitment ++ vk.cmS.map .commitment ++ [.field vk.root] ++ vk.k.map .field ++ pi.map .field

/-- models `transcript_get_challenge_field_elem`, transcript.rs:33-48: the first drawn element that is no `n`-th root of unity -/
def challenge {C : Type} {n : Nat} (O : Oracle F C n) (tr : Tr F C) (label : String) : F × Tr F C :=
  let tr := tr ++ [.challenge label]
  (O.draw tr (Nat.find (O.live tr)), tr)

/-! ### Helpers, plonk/src/plonk/helpers.rs -/

/-- the loop of `build_group`, helpers.rs:20-27, with `left` elements to go before `max_elems` -/
def buildGroupLoop (g : F) : Nat → F → List F → Res (List F)
  | 0, cur, elems => if cur = 1 then .ok elems else .err
  | left + 1, cur, elems => if cur = 1 then .ok elems else buildGroupLoop g left (cur * g) (elems ++ [cur])

/-- models `build_group`, helpers.rs:16-29, for `max_elems ≥ 1` (the indexer panics before with an empty system) -/
def buildGroup (g : F) (maxElems : Nat) : Res (List F) := buildGroupLoop g (maxElems - 1) g [1]

/-- models `pi_poly`, helpers.rs:124-147 -/
def piPoly {C : Type} (pk : PK C F) (pi : List F) : Res (List F) := do
  let evals ← (List.range pk.group.length).mapM fun i =>
    match pk.vk.pubCons.findIdx? (fun x => decide (x = i)) with
    | some pos => index pi pos
    | none => .ok 0
  ffti pk.vk.root evals pk.vk.csSize

/-- the loop of `hide_polynomial`, helpers.rs:161-167, for the drawn `blinds` -/
def hideLoop (zeroing : Nat) : List F → Nat → List F → Res (List F)
  | [], _, p => .ok p
  | b :: bs, i, p => do
    let p ← addCoef p b i
    let p ← addCoef p (-b) (zeroing + i)
    hideLoop zeroing bs (i + 1) p

/-- models `hide_polynomial`, helpers.rs:154-169; the number of blinds is `num_hide_points + 1` -/
def hidePolynomial (blinds p : List F) (zeroing : Nat) : Res (List F) := hideLoop zeroing blinds 0 p

omit [DecidableEq F] in
/-- the closure `p_of_x`, helpers.rs:191-199: the first `i ≥ 1` with `i * n ≤ v < (i + 1) * n` -/
def permPoint (v n : Nat) (group k : List F) : Res F :=
  match k.zipIdx.tail.find? (fun e => decide (v < (e.2 + 1) * n ∧ e.2 * n ≤ v)) with
  | some e => do
    let g ← index group (v % n)
    pure (e.1 * g)
  | none => do
    let k0 ← index k 0
    let g ← index group v
    pure (k0 * g)

omit [DecidableEq F] in
/-- the inner loop of `z_poly`, helpers.rs:205-216: numerator and denominator -/
def zStep (n : Nat) (perm : List Nat) (w group k : List F) (beta gamma : F) (i : Nat) : Res (F × F) :=
  (List.range 5).foldlM (fun nd j => do
    let kj ← index k j
    let gi ← index group i
    let f ← index w (j * n + i)
    let pv ← index perm (j * n + i)
    let px ← permPoint pv n group k
    pure (nd.1 * (f + gamma + beta * (kj * gi)), nd.2 * (f + gamma + beta * px))) (1, 1)

/-- models `z_poly`, helpers.rs:175-226 (a polynomial object that holds values, not coefficients); `n_constraints - 1`
underflows for an empty system -/
def zPoly (perm : List Nat) (w group k : List F) (beta gamma : F) : Res (List F) :=
  let n := w.length / 5
  if n = 0 then .panic
  else do
    let r ← (List.range (n - 1)).foldlM (fun (st : F × List F) i => do
      let nd ← zStep n perm w group k beta gamma i
      let inv ← invUnwrap nd.2
      let prev := st.1 * (nd.1 * inv)
      pure (prev, st.2 ++ [prev])) (1, [1])
    pure (fromCoefs r.2)

/-- models `quot_eval_dom_size`, turbo.rs:74-80 -/
def quotSize (n : Nat) : Nat := if n > 8 then n * 6 else n * 16

omit [DecidableEq F] in
/-- one round of the loop of `t_poly`, helpers.rs:263-332 -/
def tPoint {C : Type} (pk : PK C F) (wC : List (List F)) (piC zC : List F) (beta gamma alpha : F) (m factor point : Nat) :
    Res F := do
  let wVals ← wC.mapM (fun l => index l point)
  let qVals ← pk.qCoset.mapM (fun l => index l point)
  let piV ← index piC point
  let term1 ← Res.ofOption (evalGateFunc wVals qVals piV)
  let zV ← index zC point
  let x ← index pk.cosetQuotient point
  let term2 ← (List.range 5).foldlM (fun t j => do
    let wj ← index wVals j
    let kj ← index pk.vk.k j
    pure (t * (wj + gamma + beta * (kj * x)))) (alpha * zV)
  let zNext ← index zC ((point + factor) % m)
  let sVals ← pk.sCoset.mapM (fun l => index l point)
  let term3 := (wVals.zip sVals).foldl (fun t e => t * (e.1 + gamma + beta * e.2)) (alpha * zNext)
  let l1 ← index pk.l1Coset point
  let term4 := alpha ^ 2 * l1 * (zV - 1)
  let qb ← index pk.qbCoset point
  let w1 ← index wVals 1
  let w2 ← index wVals 2
  let w3 ← index wVals 3
  let term5 := alpha ^ 3 * qb * w1 * (w1 - 1)
  let term6 := alpha ^ 4 * qb * w2 * (w2 - 1)
  let term7 := alpha ^ 5 * qb * w3 * (w3 - 1)
  let zh ← index pk.zhInvCoset point
  pure ((term1 + term2 + (term4 - term3) + term5 + term6 + term7) * zh)

/-- models `t_poly`, helpers.rs:229-336, for a system of `n` gates -/
def tPoly {C : Type} (pk : PK C F) (n : Nat) (wPolys : List (List F)) (z : List F) (beta gamma alpha : F) (pi : List F) :
    Res (List F) :=
  let m := quotSize n
  if n = 0 then .panic
  else
    let factor := m / n
    if n * factor ≠ m then .err
    else do
      let k1 ← index pk.vk.k 1
      let wC ← wPolys.mapM (fun p => cosetFft p pk.rootM m k1)
      let piC ← cosetFft pi pk.rootM m k1
      let zC ← cosetFft z pk.rootM m k1
      let evals ← (List.range m).mapM (tPoint pk wC piC zC beta gamma alpha m factor)
      if k1 = 0 then .err
      else cosetFfti pk.rootM evals k1⁻¹ m

/-- the operations of `HomomorphicPolyComElem`, pcs.rs:14-42, that `r_poly_or_comm` uses -/
structure HomOps (F C : Type) where
  add : C → C → C
  sub : C → C → C
  mul : C → F → C

/-- `impl HomomorphicPolyComElem for KZGCommitment`, kzg_poly_com.rs:26-58 -/
def commOps : HomOps F G1 := ⟨fun a b => a + b, fun a b => a - b, fun a s => s • a⟩

/-- `impl HomomorphicPolyComElem for FpPolynomial`, kzg_poly_com.rs:66-100 -/
def polyOps : HomOps F (List F) := ⟨Poly.add, Poly.sub, mulScalar⟩

omit [DecidableEq F] in
/-- models `compute_z_scalar_in_r`, helpers.rs:506-529 -/
def zScalar (wEv k : List F) (ch : Challenges F) (l1 : F) : Res F := do
  let s ← (List.range wEv.length).foldlM (fun s i => do
    let w ← index wEv i
    let ki ← index k i
    pure (s * (w + ki * (ch.beta * ch.zeta) + ch.gamma))) ch.alpha
  pure (s + l1 * (ch.alpha * ch.alpha))

omit [DecidableEq F] in
/-- the product over all wires but the last of `w_i + beta * s_i + gamma`, times `init`; helpers.rs:379-385 and 676-683.
`len() - 1` underflows without wires. -/
def sProduct (wEv sEv : List F) (ch : Challenges F) (init : F) : Res F :=
  if wEv.length = 0 then .panic
  else (List.range (wEv.length - 1)).foldlM (fun s i => do
    let w ← index wEv i
    let si ← index sEv i
    pure (s * (w + ch.beta * si + ch.gamma))) init

/-- the combination of the parts of the quotient, helpers.rs:394-400 and 484-490: `exponent` times the next part -/
def tCombine {C : Type} (ops : HomOps F C) (factor : F) : List C → F → C → C
  | [], _, acc => acc
  | t :: ts, exponent, acc => tCombine ops factor ts (exponent * factor) (ops.add acc (ops.mul t exponent))

omit [DecidableEq F] in
/-- the first loop, helpers.rs:366-369 -/
def selectorLoop {C : Type} (ops : HomOps F C) : List C → List F → C → Res C
  | [], _, acc => .ok acc
  | q :: qs, w :: ws, acc => selectorLoop ops qs ws (ops.add acc (ops.mul q w))
  | _ :: _, [], _ => .panic

omit [DecidableEq F] in
/-- models `r_poly_or_comm` without the `parallel` feature, helpers.rs:340-403 -/
def rPolyOrComm {C : Type} (ops : HomOps F C) (w : List F) (qs : List C) (qb : C) (k : List F) (sLast z : C) (wEv sEv : List F)
    (zEv : F) (ch : Challenges F) (ts : List C) (l1 zh : F) (nT : Nat) : Res C := do
  let q0 ← index qs 0
  let w0 ← index w 0
  let l ← selectorLoop ops qs.tail w.tail (ops.mul q0 w0)
  let zs ← zScalar wEv k ch l1
  let l := ops.add l (ops.mul z zs)
  let ss ← sProduct wEv sEv ch (ch.alpha * (zEv * ch.beta))
  let l := ops.sub l (ops.mul sLast ss)
  let w1 ← index w 1
  let w2 ← index w 2
  let w3 ← index w 3
  let w1p := w1 * (w1 - 1) * ch.alpha ^ 3
  let w2p := w2 * (w2 - 1) * ch.alpha ^ 4
  let w3p := w3 * (w3 - 1) * ch.alpha ^ 5
  let l := ops.add l (ops.mul qb (w1p + w2p + w3p))
  let factor := ch.zeta ^ nT
  let t0 ← index ts 0
  let t := tCombine ops factor ts.tail (zh * factor) (ops.mul t0 zh)
  pure (ops.sub l t)

omit [DecidableEq F] in
/-- the three products and sums of helpers.rs:443-458; `reduce` of rayon groups the factors in some order, which does not matter
for the operations of a field -/
def parallelLoop (ch : Challenges F) : List F → List F → List F → List F → F × F × F → F × F × F
  | w :: ws, k :: ks, s :: ss, a :: as, r =>
    parallelLoop ch ws ks ss as
      (r.1 * (w + k * (ch.beta * ch.zeta) + ch.gamma), r.2.1 * (w + ch.beta * s + ch.gamma), r.2.2 + w * a * (w - 1))
  | _, _, _, _, r => r

omit [DecidableEq F] in
/-- the sum of the products of the zipped lists, helpers.rs:494-499: `none` for an empty list -/
def parallelSum {C : Type} (ops : HomOps F C) : List C → List F → Option C
  | [], _ => none
  | _, [] => none
  | c :: cs, x :: xs => some ((cs.zip xs).foldl (fun acc e => ops.add acc (ops.mul e.1 e.2)) (ops.mul c x))

omit [DecidableEq F] in
/-- models `r_poly_or_comm` with the `parallel` feature, helpers.rs:407-500 -/
def rPolyOrCommParallel {C : Type} (ops : HomOps F C) (w : List F) (qs : List C) (qb : C) (k : List F) (sLast z : C)
    (wEv sEv : List F) (zEv : F) (ch : Challenges F) (ts : List C) (l1 zh : F) (nT : Nat) : Res C := do
  if wEv.length = 0 ∨ k.length = 0 then .panic
  else do
    let res := parallelLoop ch (wEv.take (wEv.length - 1)) k sEv [0, ch.alpha ^ 2, ch.alpha ^ 3, ch.alpha ^ 4] (1, 1, 0)
    let wLast ← index wEv (wEv.length - 1)
    let kLast ← index k (k.length - 1)
    let res0 := res.1 * (wLast + kLast * (ch.beta * ch.zeta) + ch.gamma) + l1 * ch.alpha
    let zTerm := ops.mul z res0
    let sTerm := ops.mul (ops.mul sLast res.2.1) (zEv * ch.beta)
    let qbTerm := ops.mul qb res.2.2
    let factor := ch.zeta ^ nT
    let t0 ← index ts 0
    let t := tCombine ops factor ts.tail (zh * factor) (ops.mul t0 zh)
    Res.unwrap (parallelSum ops (qs ++ [zTerm, sTerm, qbTerm, t]) (w ++ [ch.alpha, -ch.alpha, ch.alpha, -1]))

/-- models `r_poly`, helpers.rs:532-561 -/
def rPoly {C : Type} (pk : PK C F) (z : List F) (wEv sEv : List F) (zEv : F) (ch : Challenges F) (tPolys : List (List F))
    (l1 zh : F) (nT : Nat) : Res (List F) := do
  let w ← Res.unwrap (evalSelectorMultipliers wEv)
  let sLast ← index pk.sPolys 4
  rPolyOrComm polyOps w pk.qPolys pk.qbPoly pk.vk.k sLast z wEv sEv zEv ch tPolys l1 zh nT

omit [DecidableEq F] in
/-- models `r_commitment`, helpers.rs:564-593 -/
def rCommitment (vk : VK G1 F) (cmZ : G1) (wEv sEv : List F) (zEv : F) (ch : Challenges F) (cmT : List G1) (l1 zh : F)
    (nT : Nat) : Res G1 := do
  let w ← Res.unwrap (evalSelectorMultipliers wEv)
  let sLast ← index vk.cmS 4
  rPolyOrComm commOps w vk.cmQ vk.cmQb vk.k sLast cmZ wEv sEv zEv ch cmT l1 zh nT

/-- the loop of `eval_pi_poly`, helpers.rs:607-619: the three lists are zipped -/
def evalPiLoop (root point : F) : List Nat → List F → List F → F → Res F
  | c :: cons, v :: pi, l :: lag, acc => do
    let inv ← invUnwrap (point - root ^ c)
    evalPiLoop root point cons pi lag (acc + l * inv * v)
  | _, _, _, acc => .ok acc

omit [AddCommGroup G1] [Module F G1] in
/-- models `eval_pi_poly` without the `parallel` feature, helpers.rs:599-622 -/
def evalPi (vk : VK G1 F) (pi : List F) (zh point : F) : Res F := do
  let e ← evalPiLoop vk.root point vk.pubCons pi vk.lagrange 0
  pure (e * zh)

/-- the mapped list of `eval_pi_poly` with the `parallel` feature, helpers.rs:634-645 -/
def evalPiTerms (root point : F) : List Nat → List F → List F → Res (List F)
  | c :: cons, v :: pi, l :: lag => do
    let inv ← invUnwrap (point - root ^ c)
    let rest ← evalPiTerms root point cons pi lag
    pure (l * inv * v :: rest)
  | _, _, _ => .ok []

omit [AddCommGroup G1] [Module F G1] in
/-- models `eval_pi_poly` with the `parallel` feature, helpers.rs:628-648; `reduce` is the sum -/
def evalPiParallel (vk : VK G1 F) (pi : List F) (zh point : F) : Res F := do
  let es ← evalPiTerms vk.root point vk.pubCons pi vk.lagrange
  pure (es.sum * zh)

/-- models `compute_lagrange_constant`, helpers.rs:653-662 -/
def lagrangeConstant (group : List F) (base : Nat) : Res F := do
  let p ← (List.range group.length).foldlM (fun acc i =>
    if i = base then .ok acc
    else do
      let b ← index group base
      let e ← index group i
      pure (acc * (b - e))) 1
  invUnwrap p

omit [DecidableEq F] [AddCommGroup G1] [Module F G1] in
/-- models `r_eval_zeta`, helpers.rs:665-689 -/
def rEvalZeta (proof : Proof G1 F) (ch : Challenges F) (piEv l1 : F) : Res F := do
  let term1 ← sProduct proof.wEv proof.sEv ch (ch.alpha * proof.zEv)
  let wLast ← index proof.wEv (proof.wEv.length - 1)
  let term1 := term1 * (wLast + ch.gamma)
  pure (term1 + l1 * (ch.alpha * ch.alpha) - piEv)

omit [DecidableEq F] in
/-- the last part, helpers.rs:725-729 -/
def lastPart (prev : F) : List F → List F
  | [] => [-prev]
  | c :: cs => (c - prev) :: cs

omit [DecidableEq F] in
/-- a part that is not the last, helpers.rs:721-723: `resize(n + 1, 0)`, then the last and the first coefficient are changed -/
def middlePart (n : Nat) (rand prev : F) (coefs : List F) : Res (List F) :=
  let coefs := resize coefs (n + 1)
  match coefs[n]? with
  | none => .panic
  | some c =>
    let coefs := coefs.set n (c + rand)
    match coefs[0]? with
    | none => .panic
    | some c => .ok (coefs.set 0 (c - prev))

/-- the loop of `split_t_and_commit`, helpers.rs:706-737, from part `i` of `parts` on, for the remaining random values -/
def splitLoop (msm : List F → List G1 → Res G1) (pp : Params G1 G2) (t : List F) (parts n : Nat) :
    Nat → List F → F → Res (List (G1 × List F))
  | _, [], _ => .ok []
  | i, rand :: rands, prev =>
    do
      let coefs ←
        if i = parts - 1 then .ok (lastPart prev (t.drop (i * n)))
        else middlePart n rand prev ((t.drop (i * n)).take n)
      let tp := fromCoefs coefs
      let cm ← commit msm pp tp
      let rest ← splitLoop msm pp t parts n (i + 1) rands rand
      pure ((cm, tp) :: rest)

/-- models `split_t_and_commit`, helpers.rs:692-740; one random value for each of the `n_wires_per_gate` parts -/
def splitT (msm : List F → List G1 → Res G1) (pp : Params G1 G2) (t : List F) (n : Nat) (rands : List F) :
    Res (List (G1 × List F)) := splitLoop msm pp t rands.length n 0 rands 0

/-- models `first_lagrange_poly`, helpers.rs:744-755 -/
def firstLagrange (zeta : F) (n : Nat) : Res (F × F) := do
  let zh := zeta ^ n - 1
  let inv ← invUnwrap (zeta - 1)
  pure (zh, zh * inv)

/-! ### Indexer, plonk/src/plonk/indexer.rs -/

omit [DecidableEq F] in
/-- models `encode_perm_to_group`, indexer.rs:116-128, on one value; `pi % n` panics for an empty group -/
def encodePerm (group k : List F) (v : Nat) : Res F :=
  let n := group.length
  match k.zipIdx.tail.find? (fun e => decide (v < (e.2 + 1) * n ∧ e.2 * n ≤ v)) with
  | some e => do
    let g ← index group (v % n)
    pure (e.1 * g)
  | none => index group (v % n)

/-- models `choose_ks`, indexer.rs:131-151, on the drawn values `draws`: `more` elements are still to be found.  `isResidue x`
is `x.pow((q - 1) / 2) == 1`.  No result when the given draws do not suffice. -/
def chooseKs (isResidue : F → Bool) : Nat → List F → List F → Option (List F)
  | 0, k, _ => some k
  | _ + 1, _, [] => none
  | more + 1, k, x :: draws =>
    if x = 0 then chooseKs isResidue (more + 1) k draws
    else if k.all (fun y => decide (y ≠ x)) && !isResidue x then chooseKs isResidue more (k ++ [x]) draws
    else chooseKs isResidue (more + 1) k draws

omit [Field F] [DecidableEq F] in
/-- the selector columns, turbo.rs:94-99 and 769-803 -/
def selectors (cs : CS F) : List (List F) :=
  [cs.gates.map (·.q1), cs.gates.map (·.q2), cs.gates.map (·.q3), cs.gates.map (·.q4), cs.gates.map (·.qm1),
   cs.gates.map (·.qm2), cs.gates.map (·.qc), cs.gates.map (·.qecc), cs.gates.map (·.qh1), cs.gates.map (·.qh2),
   cs.gates.map (·.qh3), cs.gates.map (·.qh4), cs.gates.map (·.qo)]

omit [Field F] [DecidableEq F] in
/-- the slice `i * n .. (i + 1) * n` -/
def slice {α : Type} (l : List α) (i n : Nat) : List α := (l.drop (i * n)).take n

/-- `qb`, indexer.rs:287-290: ones at the boolean constraints; a panic when out of range -/
def boolColumn : List Nat → List F → Res (List F)
  | [], col => .ok col
  | i :: is, col => if i < col.length then boolColumn is (col.set i 1) else .panic

/-- the commitment to a column of values: with Lagrange bases to the values, otherwise to the coefficients; indexer.rs:210-233 -/
def commitColumn (msm : List F → List G1 → Res G1) (pp : Params G1 G2) (lag : Option (Params G1 G2)) (values coefs : List F) :
    Res G1 :=
  match lag with
  | some lp => commit msm lp (fromCoefs values)
  | none => commit msm pp coefs

/-- the Lagrange parameters are used only when their size is that of the system, indexer.rs:179-187 and prover.rs:118-126 -/
def useLagrange (lag : Option (Params G1 G2)) (n : Nat) : Option (Params G1 G2) :=
  match lag with
  | some lp => if maxDegree lp + 1 = n then some lp else none
  | none => none

/-- a column of values turned into coefficients, values on the coset and a commitment; indexer.rs:211-222 -/
def indexColumn (msm : List F → List G1 → Res G1) (pp : Params G1 G2) (lag : Option (Params G1 G2)) (root rootM k1 : F) (n m : Nat)
    (values : List F) : Res (List F × List F × G1) := do
  let coefs ← ffti root values n
  let coset ← cosetFft coefs rootM m k1
  let cm ← commitColumn msm pp lag values coefs
  pure (coefs, coset, cm)

/-- models `indexer_with_lagrange`, indexer.rs:165-340; `rootOf` is `primitive_nth_root_of_unity` and `k` the result of
`choose_ks` -/
def indexer (msm : List F → List G1 → Res G1) (pp : Params G1 G2) (lag : Option (Params G1 G2)) (rootOf : Nat → Res (Option F))
    (k : List F) (cs : CS F) : Res (PK G1 F) :=
  let n := cs.gates.length
  let m := quotSize n
  if n = 0 then .panic
  else if n * (m / n) ≠ m then .err
  else do
    let factor := m / n
    let lag := useLagrange lag n
    let rootM ← rootOf m >>= Res.ofOption
    let groupM ← buildGroup rootM m
    let root ← index groupM (factor % m)
    let group ← buildGroup root n
    let k1 ← index k 1
    let perm := computePermutation cs.wiring cs.numVars
    let encoded ← perm.mapM (encodePerm group k)
    let sCols ← (List.range 5).mapM fun i => indexColumn msm pp lag root rootM k1 n m (slice encoded i n)
    let qCols ← (selectors cs).mapM fun col => indexColumn msm pp lag root rootM k1 n m col
    let l1 ← ffti root [((n % 2 ^ 32 : Nat) : F)] n
    let l1Coset ← cosetFft l1 rootM m k1
    let zhCoset ← cosetFft (fromCoefs ((-1 : F) :: List.replicate (n - 1) 0 ++ [1])) rootM m k1
    let zhInv ← zhCoset.mapM invUnwrap
    let lagrange ← cs.pubCons.mapM (lagrangeConstant group)
    let qb ← boolColumn cs.boolIdx (List.replicate n 0)
    let qbCol ← indexColumn msm pp lag root rootM k1 n m qb
    pure {
      qPolys := qCols.map (·.1), sPolys := sCols.map (·.1), qbPoly := qbCol.1
      vk := { cmQ := qCols.map (·.2.2), cmS := sCols.map (·.2.2), cmQb := qbCol.2.2, k := k, root := root, csSize := n
              pubCons := cs.pubCons, lagrange := lagrange }
      group := group, cosetQuotient := groupM.map (fun x => k1 * x), rootM := rootM, l1Coset := l1Coset, zhInvCoset := zhInv
      qCoset := qCols.map (·.2.1), sCoset := sCols.map (·.2.1), qbCoset := qbCol.2.1 }

/-! ### Prover, plonk/src/plonk/prover.rs -/

/-- the random values of the prover: two for every wire polynomial, three for `z`, one for every part of the quotient -/
structure Coins (F : Type) where
  w : List (List F)
  z : List F
  t : List F

/-- interpolation, hiding and commitment of one column; prover.rs:139-165 and 174-199 -/
def commitHidden (msm : List F → List G1 → Res G1) (pp : Params G1 G2) (lag : Option (Params G1 G2)) (root : F) (n : Nat)
    (values blinds : List F) : Res (G1 × List F) := do
  let coefs ← ffti root values n
  let coefs ← hidePolynomial blinds coefs n
  match lag with
  | some lp => do
    let cm ← commit msm lp (fromCoefs values)
    let cm ← applyBlindFactors pp n blinds 0 cm
    pure (cm, coefs)
  | none => do
    let cm ← commit msm pp coefs
    pure (cm, coefs)

/-- models `prover_with_lagrange`, prover.rs:89-299; `verifierOnly` is `cs.is_verifier_only()` -/
def prover {n : Nat} (O : Oracle F G1 n) (msm : List F → List G1 → Res G1) (pp : Params G1 G2) (lag : Option (Params G1 G2))
    (tr : Tr F G1) (verifierOnly : Bool) (cs : CS F) (pk : PK G1 F) (w : List F) (coins : Coins F) : Res (Proof G1 F) :=
  if verifierOnly then .err
  else do
    let online ← cs.pubVars.mapM (index w)
    let tr := initPlonk tr pk.vk online
    let n := cs.gates.length
    let lag := useLagrange lag n
    let ext ← Res.unwrap (extendWitness cs.wiring w)
    let pi ← piPoly pk online
    let wc ← coins.w.zipIdx.mapM fun b => commitHidden msm pp lag pk.vk.root n (slice ext b.2 n) b.1
    let cmW := wc.map (·.1)
    let wPolys := wc.map (·.2)
    let tr := tr ++ cmW.map .commitment
    let (beta, tr) := challenge O tr "beta"
    let (gamma, tr) := challenge O tr "gamma"
    let zEvals ← zPoly (computePermutation cs.wiring cs.numVars) ext pk.group pk.vk.k beta gamma
    let zc ← commitHidden msm pp lag pk.vk.root n zEvals coins.z
    let tr := appendCommitment tr zc.1
    let (alpha, tr) := challenge O tr "alpha"
    let t ← tPoly pk n wPolys zc.2 beta gamma alpha pi
    let tc ← splitT msm pp t (n + 2) coins.t
    let tr := tr ++ (tc.map (·.1)).map .commitment
    let (zeta, tr) := challenge O tr "zeta"
    let wEv := wPolys.map fun p => eval p zeta
    let sEv := (pk.sPolys.take 4).map fun p => eval p zeta
    let zEv := eval zc.2 (pk.vk.root * zeta)
    let tr := tr ++ (wEv ++ sEv).map .field ++ [.field zEv]
    let (u, tr) := challenge O tr "u"
    let ch : Challenges F := ⟨beta, gamma, alpha, zeta, u⟩
    let zl ← firstLagrange zeta n
    let r ← rPoly pk zc.2 wEv sEv zEv ch (tc.map (·.2)) zl.2 zl.1 (n + 2)
    let wit ← batchProve O.draw msm pp tr (wPolys ++ pk.sPolys.take 4 ++ [r]) zeta (n + 2)
    let witOmega ← prove msm pp zc.2 (pk.vk.root * zeta) (n + 2)
    pure { cmW := cmW, cmT := tc.map (·.1), cmZ := zc.1, wEv := wEv, zEv := zEv, sEv := sEv, wit := wit.1
           witOmega := witOmega }

/-! ### Verifier, plonk/src/plonk/verifier.rs -/

omit [AddCommGroup G1] [Module F G1] in
/-- models `compute_challenges`, verifier.rs:104-143.  The two opening witnesses are not absorbed. -/
def computeChallenges {n : Nat} (O : Oracle F G1 n) (tr : Tr F G1) (proof : Proof G1 F) : Challenges F × Tr F G1 :=
  let tr := tr ++ proof.cmW.map .commitment
  let (beta, tr) := challenge O tr "beta"
  let (gamma, tr) := challenge O tr "gamma"
  let tr := appendCommitment tr proof.cmZ
  let (alpha, tr) := challenge O tr "alpha"
  let tr := tr ++ proof.cmT.map .commitment
  let (zeta, tr) := challenge O tr "zeta"
  let tr := tr ++ (proof.wEv ++ proof.sEv).map .field ++ [.field proof.zEv]
  let (u, tr) := challenge O tr "u"
  (⟨beta, gamma, alpha, zeta, u⟩, tr)

/-- the steps of `verifier` after the challenges, verifier.rs:30-101 -/
def verifierWith (draw : Tr F G1 → Nat → F) (P : Pairing F G1 G2 Gt) (pp : Params G1 G2) (vk : VK G1 F) (pi : List F)
    (proof : Proof G1 F) (ch : Challenges F) (tr : Tr F G1) : Res Unit := do
  let zl ← firstLagrange ch.zeta vk.csSize
  let piEv ← evalPi vk pi zl.1 ch.zeta
  let rEv ← rEvalZeta proof ch piEv zl.2
  let cmR ← rCommitment vk proof.cmZ proof.wEv proof.sEv proof.zEv ch proof.cmT zl.2 zl.1 (vk.csSize + 2)
  let cms := proof.cmW ++ vk.cmS.take 4 ++ [cmR]
  let values := proof.wEv ++ proof.sEv ++ [rEv]
  let ((comm, val), _) := batch draw tr cms (vk.csSize + 2) ch.zeta values
  batchVerifyDiffPoints P pp [comm, proof.cmZ] [ch.zeta, ch.zeta * vk.root] [val, proof.zEv] [proof.wit, proof.witOmega] ch.u

/-- models `verifier`, verifier.rs:18-102; the index of the oracle type is `cs.size()` -/
def verifier {n : Nat} (O : Oracle F G1 n) (P : Pairing F G1 G2 Gt) (pp : Params G1 G2) (tr : Tr F G1) (vk : VK G1 F)
    (pi : List F) (proof : Proof G1 F) : Res Unit :=
  let r := computeChallenges O (initPlonk tr vk pi) proof
  verifierWith O.draw P pp vk pi proof r.1 r.2

end Verif.Snark
