import Verif.Crypto.ChaumPedersen

/-!
C36: equality of the message and the randomness of ElGamal ciphertexts and Pedersen commitments
(`crypto/src/basic/pedersen_elgamal.rs`).
-/

namespace Verif.PedersenElGamal

open Verif.Pippenger (sumOfProducts)
open Verif.Sigma (Tr Msg initSigma getChallenge challengePoint)
open Verif.ChaumPedersen (Gens challenges challenges_length)

variable {F G : Type} [Field F] [AddCommGroup G] [Module F G]

/-! ### Model -/

/-- models `ElGamalCiphertext`, crypto/src/basic/elgamal.rs:20-27 -/
structure Ctext (G : Type) where
  e1 : G
  e2 : G
deriving DecidableEq

/-- models `PedersenElGamalEqProof`, crypto/src/basic/pedersen_elgamal.rs:12-25 -/
structure Proof (F G : Type) where
  z1 : F
  z2 : F
  e1 : Ctext G
  c1 : G
deriving DecidableEq

/-- models `init_pedersen_elgamal_transcript`, crypto/src/basic/pedersen_elgamal.rs:28-49 -/
def initAgg (g : Gens G) (tr : Tr F G) (pk : G) (cts : List (Ctext G)) (coms : List G) : Tr F G :=
  initSigma tr "PedersenElGamalAggEq" [] (g.B :: g.Bb :: pk :: (cts.flatMap (fun ct => [ct.e1, ct.e2]) ++ coms))

/-- models the elements of `init_pok_pedersen_elgamal`, crypto/src/basic/pedersen_elgamal.rs:62-70 -/
def elems (g : Gens G) (pk : G) (ct : Ctext G) (com : G) : List G := [0, g.B, g.Bb, pk, ct.e1, ct.e2, com]

/-- crypto/src/basic/pedersen_elgamal.rs:71-75 -/
def matrix : List (List Nat) := [[0, 1], [1, 3], [1, 2]]

/-- crypto/src/basic/pedersen_elgamal.rs:76 -/
def rhs : List Nat := [4, 5, 6]

/-- crypto/src/basic/pedersen_elgamal.rs:61 -/
def initTr (tr : Tr F G) : Tr F G := tr ++ [.label "Dlog proof"]

/-- models `pedersen_elgamal_eq_prove`, crypto/src/basic/pedersen_elgamal.rs:82-110 -/
def eqProve (g : Gens G) (H : Tr F G → F) (tr : Tr F G) (blindings : List F) (m r : F) (pk : G) (ct : Ctext G)
    (com : G) : Res (Proof F G × Tr F G) := do
  let (p, tr) ← Sigma.prove H (initTr tr) blindings (elems g pk ct com) matrix [m, r]
  let z1 ← Res.unwrap p.responses[0]?
  let z2 ← Res.unwrap p.responses[1]?
  let e1 ← Res.unwrap p.commitments[0]?
  let e2 ← Res.unwrap p.commitments[1]?
  let c1 ← Res.unwrap p.commitments[2]?
  return (⟨z1, z2, ⟨e1, e2⟩, c1⟩, tr)

/-- models `pedersem_elgamal_eq_verify_scalars`, crypto/src/basic/pedersen_elgamal.rs:112-137 -/
def eqVerifyScalars (g : Gens G) (H : Tr F G → F) (tr : Tr F G) (alphas : Nat → F) (pk : G) (ct : Ctext G) (com : G)
    (p : Proof F G) : Res (List F × Tr F G) := do
  let (s, tr) ← Sigma.verifyScalars H (initTr tr) alphas (elems g pk ct com) matrix rhs
    ⟨[p.e1.e1, p.e1.e2, p.c1], [p.z1, p.z2]⟩
  return (s.drop 1, tr)

/-- models `pedersen_elgamal_eq_verify`, crypto/src/basic/pedersen_elgamal.rs:143-176 (the multi-scalar multiplication of
curve25519-dalek is the sum of the products) -/
def eqVerify [DecidableEq G] (g : Gens G) (H : Tr F G → F) (tr : Tr F G) (alphas : Nat → F) (pk : G) (ct : Ctext G)
    (com : G) (p : Proof F G) : Res (Tr F G) := do
  let (s, tr) ← eqVerifyScalars g H tr alphas pk ct com p
  if sumOfProducts s [g.B, g.Bb, pk, ct.e1, ct.e2, com, p.e1.e1, p.e1.e2, p.c1] ≠ 0 then .err else .ok tr

/-- models `get_linear_combination_scalars`, crypto/src/basic/pedersen_elgamal.rs:178-187 -/
def lcScalars (H : Tr F G → F) (tr : Tr F G) (n : Nat) : List F × Tr F G :=
  if n = 0 then ([], tr)
  else (1 :: (challenges H tr (n - 1)).1, (challenges H tr (n - 1)).2)

/-- one accumulator of the loops of crypto/src/basic/pedersen_elgamal.rs:216-227 and 285-289 -/
def lc {M : Type} [AddCommGroup M] [Module F M] (x : List F) (l : List M) : M :=
  (x.zip l).foldl (fun acc p => acc + p.1 • p.2) 0

/-- the combined ciphertext -/
def lcCt (x : List F) (cts : List (Ctext G)) : Ctext G := ⟨lc x (cts.map (·.e1)), lc x (cts.map (·.e2))⟩

/-- models `pedersen_elgamal_aggregate_eq_proof`, crypto/src/basic/pedersen_elgamal.rs:190-234; the assertions panic -/
def aggProve (g : Gens G) (H : Tr F G → F) (tr : Tr F G) (blindings : List F) (m r : List F) (pk : G)
    (cts : List (Ctext G)) (coms : List G) : Res (Proof F G × Tr F G) :=
  if m.length = r.length ∧ m.length = cts.length ∧ m.length = coms.length then
    let x := lcScalars H (initAgg g tr pk cts coms) m.length
    eqProve g H x.2 blindings (lc x.1 m) (lc x.1 r) pk (lcCt x.1 cts) (lc x.1 coms)
  else .panic

/-- models `PedersenElGamalProofInstance`, crypto/src/basic/pedersen_elgamal.rs:237-246 -/
structure Instance (F G : Type) where
  pk : G
  cts : List (Ctext G)
  coms : List G
  proof : Proof F G

/-- the generator's samples for one instance: its coefficient and the row coefficients -/
structure Coins (F : Type) where
  alpha : F
  rows : Nat → F

/-- models the body of the loop of `pedersen_elgamal_batch_verify`, crypto/src/basic/pedersen_elgamal.rs:270-316 -/
def batchStep (g : Gens G) (H : Tr F G → F) (tr : Tr F G) (acc : F × F × List F × List G)
    (i : Instance F G × Coins F) : Res (F × F × List F × List G) :=
  if i.1.cts.length = i.1.coms.length then do
    let x := lcScalars H (initAgg g tr i.1.pk i.1.cts i.1.coms) i.1.cts.length
    let ct := lcCt x.1 i.1.cts
    let c := lc x.1 i.1.coms
    let (s, _) ← eqVerifyScalars g H x.2 i.2.rows i.1.pk ct c i.1.proof
    let s0 ← Res.unwrap s[0]?
    let s1 ← Res.unwrap s[1]?
    return (acc.1 + i.2.alpha * s0, acc.2.1 + i.2.alpha * s1, acc.2.2.1 ++ (s.drop 2).map (i.2.alpha * ·),
      acc.2.2.2 ++ [i.1.pk, ct.e1, ct.e2, c, i.1.proof.e1.e1, i.1.proof.e1.e2, i.1.proof.c1])
  else .panic

/-- models `pedersen_elgamal_batch_verify`, crypto/src/basic/pedersen_elgamal.rs:251-327 -/
def batchVerify [DecidableEq G] (g : Gens G) (H : Tr F G → F) (tr : Tr F G) (is : List (Instance F G × Coins F)) :
    Res Unit := do
  let acc ← is.foldlM (batchStep g H tr) (0, 0, [], [])
  if sumOfProducts (acc.1 :: acc.2.1 :: acc.2.2.1) (g.B :: g.Bb :: acc.2.2.2) ≠ 0 then .err else .ok ()

/-- models `pedersen_elgamal_aggregate_eq_verify`, crypto/src/basic/pedersen_elgamal.rs:329-347 -/
def aggVerify [DecidableEq G] (g : Gens G) (H : Tr F G → F) (tr : Tr F G) (r : Coins F) (i : Instance F G) : Res Unit :=
  batchVerify g H tr [(i, r)]

/-! ### Specification -/

/-- The statement: the ciphertext encrypts `m` with randomness `r` under `pk`, and the commitment is to `m` with
blinding `r`. -/
def Stmt (g : Gens G) (pk : G) (ct : Ctext G) (com : G) (m r : F) : Prop :=
  ct.e1 = r • g.B ∧ ct.e2 = m • g.B + r • pk ∧ com = m • g.B + r • g.Bb

/-- the verification equations for the challenge `c` -/
def Equations (g : Gens G) (pk : G) (ct : Ctext G) (com : G) (p : Proof F G) (c : F) : Prop :=
  p.z2 • g.B = c • ct.e1 + p.e1.e1 ∧ p.z1 • g.B + p.z2 • pk = c • ct.e2 + p.e1.e2 ∧
    p.z1 • g.B + p.z2 • g.Bb = c • com + p.c1

/-- the point at which the challenge is drawn -/
def eqPoint (g : Gens G) (tr : Tr F G) (pk : G) (ct : Ctext G) (com : G) (p : Proof F G) : Tr F G :=
  challengePoint (initTr tr) (elems g pk ct com) [p.e1.e1, p.e1.e2, p.c1]

/-- extraction of the message and the randomness -/
def extractM (p q : Proof F G) (c c' : F) : F := (p.z1 - q.z1) / (c - c')

/-- extraction of the randomness -/
def extractR (p q : Proof F G) (c c' : F) : F := (p.z2 - q.z2) / (c - c')

/-! ### Lemmas -/

theorem lc_eq {M : Type} [AddCommGroup M] [Module F M] (x : List F) (l : List M) : lc x l = sumOfProducts x l := by
  unfold lc
  suffices H : ∀ acc : M, (x.zip l).foldl (fun acc p => acc + p.1 • p.2) acc = acc + sumOfProducts x l by
    rw [H 0, zero_add]
  induction x generalizing l with
  | nil => intro acc; simp [Sigma.dot_nil]
  | cons a x ih => cases l with
    | nil => intro acc; simp [Sigma.dot_nil_right]
    | cons b l => intro acc; rw [List.zip_cons_cons, List.foldl_cons, ih, Sigma.dot_cons]; abel

theorem lc_cons {M : Type} [AddCommGroup M] [Module F M] (a : F) (x : List F) (b : M) (l : List M) :
    lc (a :: x) (b :: l) = a • b + lc x l := by rw [lc_eq, lc_eq, Sigma.dot_cons]

theorem lc_nil {M : Type} [AddCommGroup M] [Module F M] (l : List M) : lc ([] : List F) l = 0 := by
  rw [lc_eq, Sigma.dot_nil]

/-- the combination of the defects -/
def defect (g : Gens G) (al : Nat → F) (pk : G) (ct : Ctext G) (com : G) (p : Proof F G) (c : F) : G :=
  al 0 • (p.z2 • g.B - p.e1.e1 - c • ct.e1) + al 1 • (p.z1 • g.B + p.z2 • pk - p.e1.e2 - c • ct.e2) +
    al 2 • (p.z1 • g.B + p.z2 • g.Bb - p.c1 - c • com)

theorem scalars_dot (g : Gens G) (al : Nat → F) (pk : G) (ct : Ctext G) (com : G) (p : Proof F G) (c : F) :
    sumOfProducts (Sigma.collectScalars al 7 matrix rhs [p.z1, p.z2] c)
      (elems g pk ct com ++ [p.e1.e1, p.e1.e2, p.c1]) = defect g al pk ct com p c := by
  have := Sigma.collectScalars_dot (elems g pk ct com) [p.e1.e1, p.e1.e2, p.c1] al matrix rhs [p.z1, p.z2] c
    [[0, g.B], [g.B, pk], [g.B, g.Bb]] [ct.e1, ct.e2, com] rfl rfl rfl rfl
  have hl : (elems g pk ct com).length = 7 := rfl
  rw [hl] at this
  rw [this]
  simp [Sigma.comb, Sigma.dot_cons, Sigma.dot_nil, defect]
  abel

theorem defect_zero_iff (g : Gens G) (pk : G) (ct : Ctext G) (com : G) (p : Proof F G) (c : F) :
    (∀ al : Nat → F, defect g al pk ct com p c = 0) ↔ Equations g pk ct com p c := by
  constructor
  · intro h
    have h0 := h (fun i => if i = 0 then 1 else 0)
    have h1 := h (fun i => if i = 1 then 1 else 0)
    have h2 := h (fun i => if i = 2 then 1 else 0)
    simp only [defect, if_true, one_smul, one_ne_zero, if_false, zero_smul, add_zero, zero_ne_one, zero_add,
      OfNat.ofNat_ne_zero, OfNat.zero_ne_ofNat, OfNat.ofNat_ne_one, OfNat.one_ne_ofNat] at h0 h1 h2
    rw [sub_sub, sub_eq_zero] at h0 h1 h2
    exact ⟨by rw [h0]; abel, by rw [h1]; abel, by rw [h2]; abel⟩
  · rintro ⟨h0, h1, h2⟩ al
    unfold defect
    rw [h0, h1, h2]
    module

/-- nine scalars, and what they compute -/
theorem eqVerifyScalars_eq (g : Gens G) (H : Tr F G → F) (tr : Tr F G) (al : Nat → F) (pk : G) (ct : Ctext G) (com : G)
    (p : Proof F G) :
    ∃ s0 s1 s2 s3 s4 s5 s6 s7 s8, eqVerifyScalars g H tr al pk ct com p =
        .ok ([s0, s1, s2, s3, s4, s5, s6, s7, s8], eqPoint g tr pk ct com p ++ [.challenge]) ∧
      sumOfProducts [s0, s1, s2, s3, s4, s5, s6, s7, s8]
        [g.B, g.Bb, pk, ct.e1, ct.e2, com, p.e1.e1, p.e1.e2, p.c1] =
        defect g al pk ct com p (H (eqPoint g tr pk ct com p)) := by
  have hl := Sigma.collectScalars_length al 7 matrix rhs [p.z1, p.z2] (H (eqPoint g tr pk ct com p))
  have hd := scalars_dot g al pk ct com p (H (eqPoint g tr pk ct com p))
  have hv : Sigma.verifyScalars H (initTr tr) al (elems g pk ct com) matrix rhs ⟨[p.e1.e1, p.e1.e2, p.c1], [p.z1, p.z2]⟩ =
      .ok (Sigma.collectScalars al 7 matrix rhs [p.z1, p.z2] (H (eqPoint g tr pk ct com p)),
        eqPoint g tr pk ct com p ++ [.challenge]) := rfl
  unfold eqVerifyScalars
  rw [hv]
  generalize Sigma.collectScalars al 7 matrix rhs [p.z1, p.z2] (H (eqPoint g tr pk ct com p)) = s at hl hd
  have hl' : s.length = 10 := hl
  match s, hl' with
  | [s0, a0, a1, a2, a3, a4, a5, a6, a7, a8], _ =>
    refine ⟨a0, a1, a2, a3, a4, a5, a6, a7, a8, rfl, ?_⟩
    rw [← hd]
    simp only [elems, List.cons_append, List.nil_append, Sigma.dot_cons, Sigma.dot_nil, smul_zero, zero_add]

theorem eqVerify_eq [DecidableEq G] (g : Gens G) (H : Tr F G → F) (tr : Tr F G) (al : Nat → F) (pk : G) (ct : Ctext G)
    (com : G) (p : Proof F G) : eqVerify g H tr al pk ct com p =
      if defect g al pk ct com p (H (eqPoint g tr pk ct com p)) = 0 then .ok (eqPoint g tr pk ct com p ++ [.challenge])
      else .err := by
  obtain ⟨s0, s1, s2, s3, s4, s5, s6, s7, s8, h, hd⟩ := eqVerifyScalars_eq g H tr al pk ct com p
  unfold eqVerify
  rw [h]
  simp only [Res.bind_ok, hd]
  split <;> simp_all

/-! ### C36, one statement -/

/-- the prover's output is accepted: its equations hold and prover and verifier leave the same transcript -/
theorem eqProve_equations (g : Gens G) (H : Tr F G → F) (tr : Tr F G) (b1 b2 m r : F) (pk : G) (ct : Ctext G) (com : G)
    (h : Stmt g pk ct com m r) :
    ∃ p, eqProve g H tr [b1, b2] m r pk ct com = .ok (p, eqPoint g tr pk ct com p ++ [.challenge]) ∧
      Equations g pk ct com p (H (eqPoint g tr pk ct com p)) := by
  have hcoms := Sigma.proofCommitments_ok [b1, b2] (elems g pk ct com) matrix [[0, g.B], [g.B, pk], [g.B, g.Bb]]
    (by simp [matrix]) rfl
  simp only [List.map_cons, List.map_nil, Sigma.dot_cons, Sigma.dot_nil, smul_zero, zero_add, add_zero] at hcoms
  have hp : ∃ c, c = H (challengePoint (initTr tr) (elems g pk ct com)
    [b2 • g.B, b1 • g.B + b2 • pk, b1 • g.B + b2 • g.Bb]) := ⟨_, rfl⟩
  obtain ⟨c, hc⟩ := hp
  refine ⟨⟨m * c + b1, r * c + b2, ⟨b2 • g.B, b1 • g.B + b2 • pk⟩, b1 • g.B + b2 • g.Bb⟩, ?_, ?_⟩
  · unfold eqProve Sigma.prove
    rw [hcoms]
    simp only [Res.bind_ok, getChallenge, ← hc]
    rfl
  · have : H (eqPoint g tr pk ct com ⟨m * c + b1, r * c + b2, ⟨b2 • g.B, b1 • g.B + b2 • pk⟩, b1 • g.B + b2 • g.Bb⟩) = c :=
      hc.symm
    rw [this]
    obtain ⟨h1, h2, h3⟩ := h
    refine ⟨?_, ?_, ?_⟩
    · simp only [h1]; module
    · simp only [h2]; module
    · simp only [h3]; module

/-- **C36 (completeness).** -/
theorem C36_eq_complete [DecidableEq G] (g : Gens G) (H : Tr F G → F) (tr : Tr F G) (blindings : List F)
    (hb : blindings.length = 2) (al : Nat → F) (m r : F) (pk : G) (ct : Ctext G) (com : G)
    (h : Stmt g pk ct com m r) :
    ∃ p tr', eqProve g H tr blindings m r pk ct com = .ok (p, tr') ∧ eqVerify g H tr al pk ct com p = .ok tr' := by
  match blindings, hb with
  | [b1, b2], _ =>
    obtain ⟨p, hp, he⟩ := eqProve_equations g H tr b1 b2 m r pk ct com h
    refine ⟨p, _, hp, ?_⟩
    rw [eqVerify_eq, if_pos ((defect_zero_iff g pk ct com p _).mpr he al)]

/-- **C36.**  Acceptance with every choice of the row coefficients means the three equations. -/
theorem C36_eq_accepts_iff [DecidableEq G] (g : Gens G) (H : Tr F G → F) (tr : Tr F G) (pk : G) (ct : Ctext G) (com : G)
    (p : Proof F G) :
    (∀ al, ∃ tr', eqVerify g H tr al pk ct com p = .ok tr') ↔
      Equations g pk ct com p (H (eqPoint g tr pk ct com p)) := by
  rw [← defect_zero_iff]
  refine forall_congr' (fun al => ?_)
  rw [eqVerify_eq]
  split <;> simp_all

/-- **C36 (special soundness).**  Two transcripts with the same commitments and different challenges give the message and
the randomness. -/
theorem C36_special_sound (g : Gens G) (pk : G) (ct : Ctext G) (com : G) (p q : Proof F G) (c c' : F)
    (he : p.e1 = q.e1) (hc1 : p.c1 = q.c1) (hne : c ≠ c')
    (hp : Equations g pk ct com p c) (hq : Equations g pk ct com q c') :
    Stmt g pk ct com (extractM p q c c') (extractR p q c c') := by
  have hc : c - c' ≠ 0 := sub_ne_zero.mpr hne
  have key : ∀ (X C Y : G) (a b a' b' : F), a • g.B + b • Y = c • X + C → a' • g.B + b' • Y = c' • X + C →
      X = ((a - a') / (c - c')) • g.B + ((b - b') / (c - c')) • Y := by
    intro X C Y a b a' b' e e'
    have hX : (c - c') • X = (a - a') • g.B + (b - b') • Y := by
      have : (c - c') • X = (c • X + C) - (c' • X + C) := by module
      rw [this, ← e, ← e']; module
    rw [div_eq_inv_mul, div_eq_inv_mul, mul_smul, mul_smul, ← smul_add, ← hX, smul_smul, inv_mul_cancel₀ hc, one_smul]
  obtain ⟨p1, p2, p3⟩ := hp
  obtain ⟨q1, q2, q3⟩ := hq
  rw [← he] at q1 q2
  rw [← hc1] at q3
  refine ⟨?_, key _ _ _ _ _ _ _ p2 q2, key _ _ _ _ _ _ _ p3 q3⟩
  have := key ct.e1 p.e1.e1 g.B 0 p.z2 0 q.z2 (by rw [zero_smul, zero_add]; exact p1) (by rw [zero_smul, zero_add]; exact q1)
  rw [this]
  simp [extractR]

/-! ### C36, aggregation -/

/-- the statement for every ciphertext and commitment -/
def Stmts (g : Gens G) (pk : G) : List (Ctext G) → List G → List F → List F → Prop
  | [], [], [], [] => True
  | ct :: cts, com :: coms, m :: ms, r :: rs => Stmt g pk ct com m r ∧ Stmts g pk cts coms ms rs
  | _, _, _, _ => False

theorem Stmts.lengths {g : Gens G} {pk : G} {cts : List (Ctext G)} {coms : List G} {ms rs : List F}
    (h : Stmts g pk cts coms ms rs) : ms.length = rs.length ∧ ms.length = cts.length ∧ ms.length = coms.length := by
  induction cts generalizing coms ms rs with
  | nil =>
    match coms, ms, rs, h with
    | [], [], [], _ => exact ⟨rfl, rfl, rfl⟩
  | cons ct cts ih =>
    match coms, ms, rs, h with
    | com :: coms, m :: ms, r :: rs, h =>
      obtain ⟨h1, h2, h3⟩ := ih h.2
      simp [h1, h2, h3]
      omega

/-- **C36 (aggregation is linear).**  The combination of the statements is a statement about the combinations. -/
theorem C36_aggregate_linear (g : Gens G) (pk : G) (x : List F) (cts : List (Ctext G)) (coms : List G) (ms rs : List F)
    (h : Stmts g pk cts coms ms rs) : Stmt g pk (lcCt x cts) (lc x coms) (lc x ms) (lc x rs) := by
  induction cts generalizing x coms ms rs with
  | nil =>
    match coms, ms, rs, h with
    | [], [], [], _ => simp [Stmt, lcCt, lc]
  | cons ct cts ih =>
    match coms, ms, rs, h with
    | com :: coms, m :: ms, r :: rs, h =>
      cases x with
      | nil => simp [Stmt, lcCt, lc_nil]
      | cons a x =>
        obtain ⟨⟨s1, s2, s3⟩, hr⟩ := h
        obtain ⟨i1, i2, i3⟩ := ih x coms ms rs hr
        simp only [lcCt] at i1 i2
        simp only [Stmt, lcCt, List.map_cons, lc_cons, smul_eq_mul]
        rw [i1, i2, i3, s1, s2, s3]
        refine ⟨?_, ?_, ?_⟩ <;> module

/-- the value a batch computes for an instance -/
def instDefect (g : Gens G) (H : Tr F G → F) (tr : Tr F G) (i : Instance F G) (rows : Nat → F) : G :=
  let x := lcScalars H (initAgg g tr i.pk i.cts i.coms) i.cts.length
  defect g rows i.pk (lcCt x.1 i.cts) (lc x.1 i.coms) i.proof
    (H (eqPoint g x.2 i.pk (lcCt x.1 i.cts) (lc x.1 i.coms) i.proof))

/-- the value a batch computes -/
def batchSum (g : Gens G) (H : Tr F G → F) (tr : Tr F G) : List (Instance F G × Coins F) → G
  | [] => 0
  | i :: is => i.2.alpha • instDefect g H tr i.1 i.2.rows + batchSum g H tr is

theorem batchSum_append (g : Gens G) (H : Tr F G → F) (tr : Tr F G) (a b : List (Instance F G × Coins F)) :
    batchSum g H tr (a ++ b) = batchSum g H tr a + batchSum g H tr b := by
  induction a with
  | nil => simp [batchSum]
  | cons i a ih => simp only [List.cons_append, batchSum, ih]; abel

/-- value of the accumulated vectors -/
def accValue (g : Gens G) (acc : F × F × List F × List G) : G :=
  sumOfProducts (acc.1 :: acc.2.1 :: acc.2.2.1) (g.B :: g.Bb :: acc.2.2.2)

theorem batchStep_ok (g : Gens G) (H : Tr F G → F) (tr : Tr F G) (acc : F × F × List F × List G)
    (hacc : acc.2.2.1.length = acc.2.2.2.length) (i : Instance F G) (r : Coins F) (hs : i.cts.length = i.coms.length) :
    ∃ acc', batchStep g H tr acc (i, r) = .ok acc' ∧ acc'.2.2.1.length = acc'.2.2.2.length ∧
      accValue g acc' = accValue g acc + r.alpha • instDefect g H tr i r.rows := by
  have hx : ∃ x, x = lcScalars H (initAgg g tr i.pk i.cts i.coms) i.cts.length := ⟨_, rfl⟩
  obtain ⟨x, hx⟩ := hx
  obtain ⟨s0, s1, s2, s3, s4, s5, s6, s7, s8, he, hd⟩ := eqVerifyScalars_eq g H x.2 r.rows i.pk (lcCt x.1 i.cts)
    (lc x.1 i.coms) i.proof
  refine ⟨(acc.1 + r.alpha * s0, acc.2.1 + r.alpha * s1, acc.2.2.1 ++ [s2, s3, s4, s5, s6, s7, s8].map (r.alpha * ·),
    acc.2.2.2 ++ [i.pk, (lcCt x.1 i.cts).e1, (lcCt x.1 i.cts).e2, lc x.1 i.coms, i.proof.e1.e1, i.proof.e1.e2, i.proof.c1]),
    ?_, ?_, ?_⟩
  · unfold batchStep
    rw [if_pos hs]
    simp only [← hx, he, Res.bind_ok]
    rfl
  · simp [hacc]
  · unfold accValue instDefect
    simp only [← hx]
    rw [← hd]
    simp only [Sigma.dot_cons]
    rw [Sigma.dot_append _ _ _ _ hacc]
    simp only [List.map_cons, List.map_nil, Sigma.dot_cons, Sigma.dot_nil]
    module

theorem batchVerify_eq [DecidableEq G] (g : Gens G) (H : Tr F G → F) (tr : Tr F G) (is : List (Instance F G × Coins F))
    (hs : ∀ i ∈ is, i.1.cts.length = i.1.coms.length) :
    batchVerify g H tr is = if batchSum g H tr is = 0 then .ok () else .err := by
  have fold : ∀ acc : F × F × List F × List G, acc.2.2.1.length = acc.2.2.2.length →
      ∃ acc', is.foldlM (batchStep g H tr) acc = .ok acc' ∧ accValue g acc' = accValue g acc + batchSum g H tr is := by
    induction is with
    | nil => intro acc _; exact ⟨acc, rfl, by simp [batchSum]⟩
    | cons i is ih =>
      intro acc hacc
      obtain ⟨i, r⟩ := i
      obtain ⟨acc1, h1, h2, h3⟩ := batchStep_ok g H tr acc hacc i r (hs _ List.mem_cons_self)
      obtain ⟨acc2, h4, h5⟩ := ih (fun i hi => hs i (List.mem_cons_of_mem _ hi)) acc1 h2
      refine ⟨acc2, ?_, ?_⟩
      · rw [List.foldlM_cons, h1, Res.bind_ok, h4]
      · rw [h5, h3]
        simp only [batchSum]
        abel
  obtain ⟨acc', h1, h2⟩ := fold (0, 0, [], []) rfl
  unfold batchVerify
  rw [h1]
  simp only [Res.bind_ok]
  have : sumOfProducts (acc'.1 :: acc'.2.1 :: acc'.2.2.1) (g.B :: g.Bb :: acc'.2.2.2) = batchSum g H tr is := by
    have e : accValue g ((0 : F), (0 : F), ([] : List F), ([] : List G)) = 0 := by
      simp [accValue, Sigma.dot_cons, Sigma.dot_nil]
    rw [e, zero_add] at h2
    exact h2
  rw [this]
  split <;> simp_all

theorem aggProve_defect (g : Gens G) (H : Tr F G → F) (tr : Tr F G) (blindings : List F)
    (hb : blindings.length = 2) (ms rs : List F) (pk : G) (cts : List (Ctext G)) (coms : List G)
    (h : Stmts g pk cts coms ms rs) :
    ∃ p tr', aggProve g H tr blindings ms rs pk cts coms = .ok (p, tr') ∧
      ∀ rows, instDefect g H tr ⟨pk, cts, coms, p⟩ rows = 0 := by
  obtain ⟨l1, l2, l3⟩ := h.lengths
  match blindings, hb with
  | [b1, b2], _ =>
    have hx : ∃ x, x = lcScalars H (initAgg g tr pk cts coms) ms.length := ⟨_, rfl⟩
    obtain ⟨x, hx⟩ := hx
    obtain ⟨p, hp, he⟩ := eqProve_equations g H x.2 b1 b2 (lc x.1 ms) (lc x.1 rs) pk (lcCt x.1 cts) (lc x.1 coms)
      (C36_aggregate_linear g pk x.1 cts coms ms rs h)
    refine ⟨p, eqPoint g x.2 pk (lcCt x.1 cts) (lc x.1 coms) p ++ [.challenge], ?_, fun rows => ?_⟩
    · unfold aggProve
      rw [if_pos ⟨l1, l2, l3⟩]
      simp only [← hx]
      exact hp
    · unfold instDefect
      simp only [← l2, ← hx]
      exact (defect_zero_iff g pk _ _ p _).mpr he rows

/-- **C36 (completeness of aggregation).**  An aggregate proof made from true statements is accepted, whatever the
verifier's coefficients. -/
theorem C36_aggregate_complete [DecidableEq G] (g : Gens G) (H : Tr F G → F) (tr : Tr F G) (blindings : List F)
    (hb : blindings.length = 2) (ms rs : List F) (pk : G) (cts : List (Ctext G)) (coms : List G)
    (h : Stmts g pk cts coms ms rs) :
    ∃ p tr', aggProve g H tr blindings ms rs pk cts coms = .ok (p, tr') ∧
      ∀ r, aggVerify g H tr r ⟨pk, cts, coms, p⟩ = .ok () := by
  obtain ⟨p, tr', hp, hd⟩ := aggProve_defect g H tr blindings hb ms rs pk cts coms h
  obtain ⟨-, l2, l3⟩ := h.lengths
  refine ⟨p, tr', hp, fun r => ?_⟩
  unfold aggVerify
  rw [batchVerify_eq g H tr _ (by simp; omega), if_pos]
  simp [batchSum, hd]

/-- **C36.**  A batch of well-formed instances is accepted with every choice of the coefficients exactly when, for every
instance, the equations hold for the combinations of its ciphertexts and commitments with coefficients one and the
challenges drawn from a transcript containing all of them. -/
theorem C36_batch_iff [DecidableEq G] (g : Gens G) (H : Tr F G → F) (tr : Tr F G) (ins : List (Instance F G))
    (hs : ∀ i ∈ ins, i.cts.length = i.coms.length) :
    (∀ coins : List (Coins F), coins.length = ins.length → batchVerify g H tr (ins.zip coins) = .ok ()) ↔
      ∀ i ∈ ins,
        let x := lcScalars H (initAgg g tr i.pk i.cts i.coms) i.cts.length
        Equations g i.pk (lcCt x.1 i.cts) (lc x.1 i.coms) i.proof
          (H (eqPoint g x.2 i.pk (lcCt x.1 i.cts) (lc x.1 i.coms) i.proof)) := by
  have e : ∀ coins : List (Coins F), batchVerify g H tr (ins.zip coins) = .ok () ↔
      batchSum g H tr (ins.zip coins) = 0 := by
    intro coins
    rw [batchVerify_eq g H tr _ (fun i hi => hs i.1 (List.of_mem_zip (a := i.1) (b := i.2) hi).1)]
    split <;> simp_all
  simp only [e]
  have e2 : (∀ i ∈ ins,
        let x := lcScalars H (initAgg g tr i.pk i.cts i.coms) i.cts.length
        Equations g i.pk (lcCt x.1 i.cts) (lc x.1 i.coms) i.proof
          (H (eqPoint g x.2 i.pk (lcCt x.1 i.cts) (lc x.1 i.coms) i.proof))) ↔
      ∀ i ∈ ins, ∀ rows, instDefect g H tr i rows = 0 :=
    forall₂_congr (fun i hi => (defect_zero_iff g i.pk _ _ i.proof _).symm)
  rw [e2]
  clear e e2 hs
  constructor
  · intro h
    induction ins with
    | nil => intro i hi; simp at hi
    | cons j ins ih =>
      intro i hi rows
      have hzero : ∀ l : List (Instance F G),
          batchSum g H tr (l.zip (List.replicate l.length (⟨0, fun _ => 0⟩ : Coins F))) = 0 := by
        intro l
        induction l with
        | nil => rfl
        | cons x l ihl => simp [List.replicate_succ, batchSum, ihl]
      rcases List.mem_cons.mp hi with rfl | hi
      · have := h (⟨1, rows⟩ :: List.replicate ins.length ⟨0, fun _ => 0⟩) (by simp)
        simpa only [List.zip_cons_cons, batchSum, one_smul, hzero, add_zero] using this
      · refine ih (fun coins hc => ?_) i hi rows
        have := h (⟨0, fun _ => 0⟩ :: coins) (by simp [hc])
        simpa [batchSum] using this
  · intro h coins hl
    induction ins generalizing coins with
    | nil => simp [batchSum]
    | cons j ins ih => cases coins with
      | nil => simp at hl
      | cons r coins =>
        simp only [List.zip_cons_cons, batchSum]
        rw [h j List.mem_cons_self, ih (fun i hi => h i (List.mem_cons_of_mem _ hi)) coins (by simpa using hl)]
        simp

/-- **C36 (batches).**  With an instance whose combination is not zero, at most one value of its coefficient is accepted,
everything else being fixed. -/
theorem C36_batch_wrong_accepted_rarely [DecidableEq G] (g : Gens G) (H : Tr F G → F) (tr : Tr F G)
    (pre post : List (Instance F G × Coins F)) (i : Instance F G) (rows : Nat → F) (a a' : F)
    (hs : ∀ j ∈ pre ++ (i, ⟨a, rows⟩) :: post, j.1.cts.length = j.1.coms.length) (hne : instDefect g H tr i rows ≠ 0)
    (h : batchVerify g H tr (pre ++ (i, ⟨a, rows⟩) :: post) = .ok ())
    (h' : batchVerify g H tr (pre ++ (i, ⟨a', rows⟩) :: post) = .ok ()) : a = a' := by
  have hz : ∀ o : F, batchVerify g H tr (pre ++ (i, ⟨o, rows⟩) :: post) = .ok () →
      batchSum g H tr pre + (o • instDefect g H tr i rows + batchSum g H tr post) = 0 := by
    intro o ho
    rw [batchVerify_eq] at ho
    · rw [batchSum_append] at ho
      have e : batchSum g H tr ((i, ⟨o, rows⟩) :: post) = o • instDefect g H tr i rows + batchSum g H tr post := rfl
      rw [e] at ho
      by_contra hcon
      rw [if_neg hcon] at ho
      cases ho
    · intro j hj
      rcases List.mem_append.mp hj with hj | hj
      · exact hs j (List.mem_append_left _ hj)
      · rcases List.mem_cons.mp hj with rfl | hj
        · exact hs (i, ⟨a, rows⟩) (by simp)
        · exact hs j (by simp [hj])
  have e := (hz a h).trans (hz a' h').symm
  rw [add_right_inj, add_left_inj] at e
  have : (a - a') • instDefect g H tr i rows = 0 := by rw [sub_smul, e, sub_self]
  rcases smul_eq_zero.mp this with h | h
  · exact sub_eq_zero.mp h
  · exact absurd h hne

theorem lc_update {M : Type} [AddCommGroup M] [Module F M] (a a' : List F) (l : List M) (k : Nat) (y : M)
    (hk : l[k]? = some y) (x x' : F) (hx : a[k]? = some x) (hx' : a'[k]? = some x')
    (h : ∀ i, i ≠ k → a[i]? = a'[i]?) : lc a' l - lc a l = (x' - x) • y := by
  induction l generalizing a a' k with
  | nil => simp at hk
  | cons z l ih =>
    cases a with
    | nil => simp at hx
    | cons u a => cases a' with
      | nil => simp at hx'
      | cons u' a' =>
        rw [lc_cons, lc_cons]
        cases k with
        | zero =>
          simp only [List.getElem?_cons_zero, Option.some.injEq] at hk hx hx'
          subst hk hx hx'
          have : a = a' := List.ext_getElem? (fun i => by simpa using h (i + 1) (by omega))
          subst this
          module
        | succ k =>
          have h0 := h 0 (by omega)
          simp only [List.getElem?_cons_zero, Option.some.injEq] at h0
          subst h0
          have := ih a a' k (by simpa using hk) (by simpa using hx) (by simpa using hx')
            (fun i hi => by simpa using h (i + 1) (by omega))
          rw [← this]; abel

/-- **C36 (extraction from aggregates).**  Messages and randomness known for two combinations whose coefficients differ
only at position `k` give the message and the randomness of the `k`-th ciphertext and commitment. -/
theorem C36_aggregate_extract (g : Gens G) (pk : G) (cts : List (Ctext G)) (coms : List G) (a a' : List F) (k : Nat)
    (x x' : F) (hx : a[k]? = some x) (hx' : a'[k]? = some x') (hne : x ≠ x') (hag : ∀ i, i ≠ k → a[i]? = a'[i]?)
    (ct : Ctext G) (com : G) (hct : cts[k]? = some ct) (hcom : coms[k]? = some com) (m r m' r' : F)
    (h : Stmt g pk (lcCt a cts) (lc a coms) m r) (h' : Stmt g pk (lcCt a' cts) (lc a' coms) m' r') :
    Stmt g pk ct com ((m' - m) / (x' - x)) ((r' - r) / (x' - x)) := by
  have hd : x' - x ≠ 0 := sub_ne_zero.mpr (Ne.symm hne)
  have inv : ∀ Y Z : G, (x' - x) • Y = Z → Y = (x' - x)⁻¹ • Z := by
    intro Y Z e; rw [← e, smul_smul, inv_mul_cancel₀ hd, one_smul]
  have u1 := lc_update a a' (cts.map (·.e1)) k ct.e1 (by simp [hct]) x x' hx hx' hag
  have u2 := lc_update a a' (cts.map (·.e2)) k ct.e2 (by simp [hct]) x x' hx hx' hag
  have u3 := lc_update a a' coms k com hcom x x' hx hx' hag
  obtain ⟨s1, s2, s3⟩ := h
  obtain ⟨t1, t2, t3⟩ := h'
  simp only [lcCt] at s1 s2 t1 t2
  rw [s1, t1] at u1
  rw [s2, t2] at u2
  rw [s3, t3] at u3
  refine ⟨?_, ?_, ?_⟩
  · rw [inv _ _ u1.symm, div_eq_inv_mul]; module
  · rw [inv _ _ u2.symm, div_eq_inv_mul, div_eq_inv_mul]; module
  · rw [inv _ _ u3.symm, div_eq_inv_mul, div_eq_inv_mul]; module

/-- **C36 (extraction, the statement with coefficient one).** -/
theorem C36_aggregate_extract_first (g : Gens G) (pk : G) (ct : Ctext G) (cts : List (Ctext G)) (com : G) (coms : List G)
    (a : List F) (ms rs : List F) (hrest : Stmts g pk cts coms ms rs) (m r : F)
    (h : Stmt g pk (lcCt (1 :: a) (ct :: cts)) (lc (1 :: a) (com :: coms)) m r) :
    Stmt g pk ct com (m - lc (M := F) a ms) (r - lc (M := F) a rs) := by
  obtain ⟨h1, h2, h3⟩ := h
  obtain ⟨l1, l2, l3⟩ := C36_aggregate_linear g pk a cts coms ms rs hrest
  simp only [lcCt, List.map_cons, lc_cons, one_smul] at h1 h2 h3 l1 l2
  rw [l1] at h1; rw [l2] at h2; rw [l3] at h3
  refine ⟨?_, ?_, ?_⟩
  · rw [eq_sub_of_add_eq h1]; module
  · rw [eq_sub_of_add_eq h2]; module
  · rw [eq_sub_of_add_eq h3]; module

/-- An aggregate proof over different numbers of ciphertexts and commitments panics in the verifier. -/
theorem C36_lengths_panic [DecidableEq G] (g : Gens G) (H : Tr F G → F) (tr : Tr F G) (i : Instance F G) (r : Coins F)
    (h : i.cts.length ≠ i.coms.length) : aggVerify g H tr r i = .panic := by
  unfold aggVerify batchVerify
  rw [List.foldlM_cons]
  unfold batchStep
  rw [if_neg h]
  rfl

/-! ### Concrete cases -/

section Examples

open Verif.Sigma Verif.ChaumPedersen

/-- message 3, randomness 4, public key 20, generators 1 and 7; and message 5, randomness 2 -/
theorem ex_stmts : Stmts (F := ZMod 101) exGens 20 [⟨4, 83⟩, ⟨2, 45⟩] [31, 19] [3, 5] [4, 2] := by
  simp only [Stmts, Stmt, and_true]
  decide +kernel

example : ∃ p tr', aggProve (F := ZMod 101) exGens (fun tr => tr.length) [] [5, 6] [3, 5] [4, 2] 20 [⟨4, 83⟩, ⟨2, 45⟩] [31, 19] =
      .ok (p, tr') ∧ ∀ r, aggVerify exGens (fun tr => (tr.length : ZMod 101)) [] r ⟨20, [⟨4, 83⟩, ⟨2, 45⟩], [31, 19], p⟩ = .ok () :=
  C36_aggregate_complete exGens _ [] [5, 6] rfl [3, 5] [4, 2] 20 _ _ ex_stmts

/-- the proof is accepted by the verifier, and no longer once a ciphertext is changed -/
example : (do
    let (p, _) ← aggProve (F := ZMod 101) exGens (fun tr => tr.length) [] [5, 6] [3, 5] [4, 2] 20 [⟨4, 83⟩, ⟨2, 45⟩] [31, 19]
    aggVerify (F := ZMod 101) exGens (fun tr => tr.length) [] ⟨9, fun i => i + 3⟩ ⟨20, [⟨4, 83⟩, ⟨2, 45⟩], [31, 19], p⟩) = .ok () ∧
  (do
    let (p, _) ← aggProve (F := ZMod 101) exGens (fun tr => tr.length) [] [5, 6] [3, 5] [4, 2] 20 [⟨4, 83⟩, ⟨2, 45⟩] [31, 19]
    aggVerify (F := ZMod 101) exGens (fun tr => tr.length) [] ⟨9, fun i => i + 3⟩ ⟨20, [⟨4, 83⟩, ⟨2, 46⟩], [31, 19], p⟩) = .err := by
  constructor <;> decide +kernel

end Examples

end Verif.PedersenElGamal
