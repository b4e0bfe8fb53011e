import Mathlib.Algebra.Module.Basic
import Mathlib.Algebra.BigOperators.Group.List.Basic
import Mathlib.Algebra.Field.ZMod
import Mathlib.Tactic.Abel
import Mathlib.Tactic.Module
import Mathlib.Tactic.LinearCombination
import Mathlib.Tactic.FieldSimp
import Mathlib.Tactic.NormNum.Prime
import Verif.Res
import Verif.Algebra.Pippenger

/-!
C33, C34: the sigma protocol for linear relations (`crypto/src/basic/matrix_sigma.rs`).

The merlin transcript is the list of the messages appended so far; a challenge is a function `H` of that list (random
oracle).  Group elements are appended by their compressed encoding; the encoding being injective, the model appends the
elements themselves.
-/

namespace Verif.Sigma

open Verif.Pippenger (sumOfProducts)

/-- a transcript message -/
inductive Msg (F G : Type) where
  | label (s : String)
  | elem (g : G)
  | commitment (g : G)
  | scalar (x : F)
  | challenge
deriving DecidableEq

/-- the transcript: all messages so far -/
abbrev Tr (F G : Type) := List (Msg F G)

variable {F G : Type} [Field F] [AddCommGroup G] [Module F G]

/-! ### Model -/

/-- models `init_sigma`, crypto/src/basic/matrix_sigma.rs:25-42 -/
def initSigma (tr : Tr F G) (name : String) (scalars : List F) (elems : List G) : Tr F G :=
  tr ++ [.label "Sigma protocol single group v.0.1", .label name] ++ scalars.map .scalar ++ elems.map .elem

/-- models `get_challenge`, crypto/src/basic/matrix_sigma.rs:52-58 -/
def getChallenge (H : Tr F G → F) (tr : Tr F G) : F × Tr F G := (H tr, tr ++ [.challenge])

/-- models the body of the loop of crypto/src/basic/matrix_sigma.rs:81-89: one proof commitment; an index out of range or
a row of the wrong length panics -/
def rowCommitment (blindings : List F) (elems : List G) (row : List Nat) : Res G :=
  if row.length = blindings.length then
    (row.zip blindings).foldlM (fun acc (p : Nat × F) => do
      let e ← Res.unwrap elems[p.1]?
      return acc + p.2 • e) 0
  else .panic

/-- models `compute_proof_commitments`, crypto/src/basic/matrix_sigma.rs:73-91 (without the transcript) -/
def proofCommitments (blindings : List F) (elems : List G) (matrix : List (List Nat)) : Res (List G) :=
  matrix.mapM (rowCommitment blindings elems)

/-- models `SigmaProof`, crypto/src/basic/matrix_sigma.rs:93-98 -/
structure Proof (F G : Type) where
  commitments : List G
  responses : List F

/-- the transcript at the time of the challenge, crypto/src/basic/matrix_sigma.rs:109-112 and 179-182 -/
def challengePoint (tr : Tr F G) (elems commitments : List G) : Tr F G :=
  initSigma tr "New Sigma Protocol" [] elems ++ commitments.map .commitment

/-- models `sigma_prove`, crypto/src/basic/matrix_sigma.rs:102-125; `blindings` are the samples of the generator, one per
secret -/
def prove (H : Tr F G → F) (tr : Tr F G) (blindings : List F) (elems : List G) (matrix : List (List Nat))
    (secrets : List F) : Res (Proof F G × Tr F G) := do
  let coms ← proofCommitments blindings elems matrix
  let (c, tr) := getChallenge H (challengePoint tr elems coms)
  let responses := List.zipWith (fun s b => s * c + b) secrets blindings
  return (⟨coms, responses⟩, tr)

/-- one round of the first loop of `collect_multi_exp_scalars`, crypto/src/basic/matrix_sigma.rs:143-154 -/
def collectRow (nElems : Nat) (responses : List F) (alpha : F) (j : Nat) (row : List Nat) (s : List F) : List F :=
  (s.mapIdx (fun i si =>
    if i < nElems then (row.zip responses).foldl (fun acc p => if i = p.1 then acc + alpha * p.2 else acc) si
    else si)).modify (nElems + j) (fun x => x - alpha)

/-- the first loop, from row `j` on -/
def collectRows (nElems : Nat) (responses : List F) (alphas : Nat → F) : Nat → List (List Nat) → List F → List F
  | _, [], s => s
  | j, row :: rows, s => collectRows nElems responses alphas (j + 1) rows (collectRow nElems responses (alphas j) j row s)

/-- the second loop, crypto/src/basic/matrix_sigma.rs:155-161 -/
def collectRhs (nElems : Nat) (challenge : F) (alphas : Nat → F) : Nat → List Nat → List F → List F
  | _, [], s => s
  | j, t :: ts, s => collectRhs nElems challenge alphas (j + 1) ts
      (s.mapIdx (fun i si => if i < nElems ∧ i = t then si - alphas j * challenge else si))

/-- models `collect_multi_exp_scalars`, crypto/src/basic/matrix_sigma.rs:128-163; `alphas j` is the `j`-th sample of the
generator -/
def collectScalars (alphas : Nat → F) (nElems : Nat) (matrix : List (List Nat)) (rhs : List Nat) (responses : List F)
    (challenge : F) : List F :=
  collectRhs nElems challenge alphas 0 rhs
    (collectRows nElems responses alphas 0 matrix (List.replicate (nElems + rhs.length) 0))

/-- models `sigma_verify_scalars`, crypto/src/basic/matrix_sigma.rs:168-192; the assertions panic -/
def verifyScalars (H : Tr F G → F) (tr : Tr F G) (alphas : Nat → F) (elems : List G) (matrix : List (List Nat))
    (rhs : List Nat) (proof : Proof F G) : Res (List F × Tr F G) :=
  if matrix.length = rhs.length ∧ rhs.length = proof.commitments.length then
    let (c, tr) := getChallenge H (challengePoint tr elems proof.commitments)
    .ok (collectScalars alphas elems.length matrix rhs proof.responses c, tr)
  else .panic

/-- the default `multi_exp` of a group, as characterised by C32: the sum of the products below 800 terms, a panic from
800 on -/
def multiExpDefault (scalars : List F) (points : List G) : Res G :=
  if scalars.length < 800 then .ok (sumOfProducts scalars points) else .panic

/-- models `sigma_verify`, crypto/src/basic/matrix_sigma.rs:196-221; `me` is the group's `multi_exp` -/
def verify [DecidableEq G] (me : List F → List G → Res G) (H : Tr F G → F) (tr : Tr F G) (alphas : Nat → F)
    (elems : List G) (matrix : List (List Nat)) (rhs : List Nat) (proof : Proof F G) : Res (Tr F G) := do
  let (s, tr) ← verifyScalars H tr alphas elems matrix rhs proof
  let result ← me s (elems ++ proof.commitments)
  if result ≠ 0 then .err else .ok tr

/-! ### Specification -/

/-- the linear combination of the elements named by `row` with the coefficients `x`; `none` when a name is out of range -/
def lin (elems : List G) (row : List Nat) (x : List F) : Option G :=
  (row.mapM (fun i => elems[i]?)).map (fun gs => sumOfProducts x gs)

/-- The statement: each row of the matrix, applied to the secrets, gives the element named on the right. -/
def Holds (elems : List G) (matrix : List (List Nat)) (rhs : List Nat) (secrets : List F) : Prop :=
  List.Forall₂ (fun row t => row.length = secrets.length ∧ ∃ g, elems[t]? = some g ∧ lin elems row secrets = some g)
    matrix rhs

/-- the indices of the instance are in range -/
def Valid (nElems : Nat) (matrix : List (List Nat)) (rhs : List Nat) : Prop :=
  matrix.length = rhs.length ∧ (∀ row ∈ matrix, ∀ i ∈ row, i < nElems) ∧ ∀ t ∈ rhs, t < nElems

/-- The verification equations of the protocol, one per row: `row * z = c * rhs + commitment`. -/
def Equations (elems : List G) (matrix : List (List Nat)) (rhs : List Nat) (coms : List G) (z : List F) (c : F) : Prop :=
  ∀ (j : Nat) row t com, matrix[j]? = some row → rhs[j]? = some t → coms[j]? = some com →
    ∃ g gt, lin elems row z = some g ∧ elems[t]? = some gt ∧ g = c • gt + com

/-- The extractor: `(z - z') / (c - c')`, responses missing at the end counting as zero. -/
def extract (n : Nat) (z z' : List F) (c c' : F) : List F :=
  (List.range n).map (fun k => ((z[k]?).getD 0 - (z'[k]?).getD 0) / (c - c'))

/-! ### Lemmas -/

theorem dot_nil (p : List G) : sumOfProducts ([] : List F) p = 0 := by simp [sumOfProducts]

theorem dot_nil_right (s : List F) : sumOfProducts s ([] : List G) = 0 := by simp [sumOfProducts]

theorem dot_cons (a : F) (s : List F) (g : G) (p : List G) :
    sumOfProducts (a :: s) (g :: p) = a • g + sumOfProducts s p := by simp [sumOfProducts]

theorem dot_add (a b : List F) (p : List G) (h : a.length = b.length) :
    sumOfProducts (List.zipWith (· + ·) a b) p = sumOfProducts a p + sumOfProducts b p := by
  induction a generalizing b p with
  | nil => cases b with
    | nil => simp [dot_nil]
    | cons => simp at h
  | cons x a ih => cases b with
    | nil => simp at h
    | cons y b => cases p with
      | nil => simp [dot_nil_right]
      | cons g p =>
        simp only [List.zipWith_cons_cons, dot_cons]
        rw [ih b p (by simpa using h)]
        module

theorem dot_map_mul (c : F) (a : List F) (p : List G) : sumOfProducts (a.map (c * ·)) p = c • sumOfProducts a p := by
  induction a generalizing p with
  | nil => simp [dot_nil]
  | cons x a ih => cases p with
    | nil => simp [dot_nil_right]
    | cons g p => simp only [List.map_cons, dot_cons]; rw [ih]; module

theorem dot_append (a b : List F) (p q : List G) (h : a.length = p.length) :
    sumOfProducts (a ++ b) (p ++ q) = sumOfProducts a p + sumOfProducts b q := by
  induction a generalizing p with
  | nil => cases p with
    | nil => simp [dot_nil]
    | cons => simp at h
  | cons x a ih => cases p with
    | nil => simp at h
    | cons g p =>
      simp only [List.cons_append, dot_cons]
      rw [ih p (by simpa using h)]
      abel

/-- adding `d` at every index -/
theorem dot_mapIdx_add (s : List F) (d : Nat → F) (p : List G) :
    sumOfProducts (s.mapIdx (fun i x => x + d i)) p =
      sumOfProducts s p + sumOfProducts ((List.range s.length).map d) p := by
  induction s generalizing d p with
  | nil => simp [dot_nil]
  | cons x s ih => cases p with
    | nil => simp [dot_nil_right]
    | cons g p =>
      rw [List.mapIdx_cons, dot_cons, dot_cons, ih (fun i => d (i + 1)) p]
      rw [List.length_cons, List.range_succ_eq_map, List.map_cons, List.map_map, dot_cons]
      have : (d ∘ Nat.succ) = fun i => d (i + 1) := rfl
      rw [this]
      module

theorem dot_map_zero (n : Nat) (p : List G) : sumOfProducts ((List.range n).map (fun _ => (0 : F))) p = 0 := by
  induction n generalizing p with
  | zero => simp [dot_nil]
  | succ n ih => cases p with
    | nil => simp [dot_nil_right]
    | cons g p =>
      rw [List.range_succ_eq_map, List.map_cons, List.map_map, dot_cons]
      have : ((fun _ => (0 : F)) ∘ Nat.succ) = fun _ => 0 := rfl
      rw [this, ih p]; simp

theorem dot_indicator (n e : Nat) (c : F) (p : List G) (g : G) (he : e < n) (hp : p[e]? = some g) :
    sumOfProducts ((List.range n).map (fun i => if i = e then c else 0)) p = c • g := by
  induction n generalizing e p with
  | zero => omega
  | succ n ih => cases p with
    | nil => simp at hp
    | cons x p =>
      rw [List.range_succ_eq_map, List.map_cons, List.map_map, dot_cons]
      cases e with
      | zero =>
        simp only [List.getElem?_cons_zero, Option.some.injEq] at hp
        subst hp
        have : ((fun i => if i = 0 then c else (0 : F)) ∘ Nat.succ) = fun _ => 0 := by funext i; simp
        rw [this, dot_map_zero]; simp
      | succ e =>
        have : ((fun i => if i = e + 1 then c else (0 : F)) ∘ Nat.succ) = fun i => if i = e then c else 0 := by
          funext i; simp
        rw [this, ih e p (by omega) (by simpa using hp)]; simp

theorem dot_map_add (n : Nat) (d e : Nat → F) (p : List G) :
    sumOfProducts ((List.range n).map (fun i => d i + e i)) p =
      sumOfProducts ((List.range n).map d) p + sumOfProducts ((List.range n).map e) p := by
  rw [← dot_add _ _ _ (by simp)]
  congr 1
  rw [List.zipWith_map, List.zipWith_self]

theorem fold_indicator (alpha si : F) (i : Nat) (l : List (Nat × F)) :
    l.foldl (fun acc p => if i = p.1 then acc + alpha * p.2 else acc) si =
      si + (l.map (fun p => if i = p.1 then alpha * p.2 else 0)).sum := by
  induction l generalizing si with
  | nil => simp
  | cons p l ih =>
    rw [List.foldl_cons, ih, List.map_cons, List.sum_cons]
    split <;> ring

theorem dot_fold (n : Nat) (alpha : F) (l : List (Nat × F)) (p : List G) (gs : List G)
    (hl : (l.map (·.1)).mapM (fun i => p[i]?) = some gs) (hlt : ∀ q ∈ l, q.1 < n) :
    sumOfProducts ((List.range n).map (fun i => (l.map (fun p => if i = p.1 then alpha * p.2 else 0)).sum)) p =
      alpha • sumOfProducts (l.map (·.2)) gs := by
  induction l generalizing gs with
  | nil =>
    have : (fun _ : Nat => (0 : F)) = fun i => (([] : List (Nat × F)).map (fun p => if i = p.1 then alpha * p.2 else 0)).sum := by
      funext i; simp
    rw [← this, dot_map_zero]; simp [dot_nil]
  | cons q l ih =>
    simp only [List.map_cons, List.mapM_cons, Option.pure_def, Option.bind_eq_bind, Option.bind_eq_some_iff] at hl
    obtain ⟨g, hg, gs', hgs', he⟩ := hl
    simp only [Option.some.injEq] at he
    subst he
    have ih' := ih gs' hgs' (fun r hr => hlt r (List.mem_cons_of_mem _ hr))
    simp only [List.map_cons, List.sum_cons, dot_cons]
    rw [dot_map_add, ih', dot_indicator n q.1 _ p g (hlt q List.mem_cons_self) hg]
    module

theorem mapM_get_append (row : List Nat) (a b : List G) (gs : List G) (h : row.mapM (fun i => a[i]?) = some gs) :
    row.mapM (fun i => (a ++ b)[i]?) = some gs ∧ (∀ i ∈ row, i < a.length) ∧ gs.length = row.length := by
  induction row generalizing gs with
  | nil => simp at h; subst h; simp
  | cons i row ih =>
    simp only [List.mapM_cons, Option.pure_def, Option.bind_eq_bind, Option.bind_eq_some_iff] at h
    obtain ⟨g, hg, gs', hgs', he⟩ := h
    simp only [Option.some.injEq] at he
    subst he
    obtain ⟨h1, h2, h3⟩ := ih gs' hgs'
    have hi : i < a.length := (List.getElem?_eq_some_iff.mp hg).1
    refine ⟨?_, ?_, by simp [h3]⟩
    · simp only [List.mapM_cons, Option.pure_def, Option.bind_eq_bind, Option.bind_eq_some_iff]
      exact ⟨g, by rw [List.getElem?_append_left hi]; exact hg, gs', h1, rfl⟩
    · intro j hj
      rcases List.mem_cons.mp hj with rfl | hj
      · exact hi
      · exact h2 j hj

theorem mapM_take (row : List Nat) (a : List G) (gs : List G) (h : row.mapM (fun i => a[i]?) = some gs) (n : Nat) :
    (row.take n).mapM (fun i => a[i]?) = some (gs.take n) := by
  induction row generalizing gs n with
  | nil => simp at h; subst h; simp
  | cons i row ih =>
    simp only [List.mapM_cons, Option.pure_def, Option.bind_eq_bind, Option.bind_eq_some_iff] at h
    obtain ⟨g, hg, gs', hgs', he⟩ := h
    simp only [Option.some.injEq] at he
    subst he
    cases n with
    | zero => simp
    | succ n =>
      simp only [List.take_succ_cons, List.mapM_cons, Option.pure_def, Option.bind_eq_bind, Option.bind_eq_some_iff]
      exact ⟨g, hg, gs'.take n, ih gs' hgs' n, rfl⟩

theorem map_fst_zip' {α β : Type} (l : List α) (m : List β) : (l.zip m).map (·.1) = l.take m.length := by
  induction l generalizing m with
  | nil => simp
  | cons x l ih => cases m with
    | nil => simp
    | cons y m => simp [ih]

theorem map_snd_zip' {α β : Type} (l : List α) (m : List β) : (l.zip m).map (·.2) = m.take l.length := by
  induction l generalizing m with
  | nil => simp
  | cons x l ih => cases m with
    | nil => simp
    | cons y m => simp [ih]

theorem dot_take (s : List F) (p : List G) : sumOfProducts (s.take p.length) (p.take s.length) = sumOfProducts s p := by
  induction s generalizing p with
  | nil => simp [dot_nil]
  | cons x s ih => cases p with
    | nil => simp [dot_nil_right]
    | cons g p => simp only [List.length_cons, List.take_succ_cons, dot_cons, ih]

theorem dot_modify_sub (s : List F) (k : Nat) (c : F) (p : List G) (g : G) (hk : k < s.length) (hp : p[k]? = some g) :
    sumOfProducts (s.modify k (fun x => x - c)) p = sumOfProducts s p - c • g := by
  induction s generalizing k p with
  | nil => simp at hk
  | cons x s ih => cases p with
    | nil => simp at hp
    | cons y p => cases k with
      | zero =>
        simp only [List.getElem?_cons_zero, Option.some.injEq] at hp
        subst hp
        simp only [List.modify_zero_cons, dot_cons]
        module
      | succ k =>
        simp only [List.modify_succ_cons, dot_cons]
        rw [ih k p (by simpa using hk) (by simpa using hp)]
        abel

theorem collectRow_length (n : Nat) (r : List F) (a : F) (j : Nat) (row : List Nat) (s : List F) :
    (collectRow n r a j row s).length = s.length := by simp [collectRow]

theorem collectRow_dot (elems coms : List G) (responses : List F) (alpha : F) (j : Nat) (row : List Nat) (s : List F)
    (gs : List G) (com : G) (hrow : row.mapM (fun i => elems[i]?) = some gs) (hcom : coms[j]? = some com)
    (hs : s.length = elems.length + coms.length) :
    sumOfProducts (collectRow elems.length responses alpha j row s) (elems ++ coms) =
      sumOfProducts s (elems ++ coms) + alpha • (sumOfProducts responses gs - com) := by
  have hj : j < coms.length := (List.getElem?_eq_some_iff.mp hcom).1
  obtain ⟨hrow', hlt, hlen⟩ := mapM_get_append row elems coms gs hrow
  unfold collectRow
  rw [dot_modify_sub _ _ alpha _ com (by simp; omega)
    (by rw [List.getElem?_append_right (by omega)]; simpa using hcom)]
  have hz : ∀ q ∈ row.zip responses, q.1 < elems.length := fun q hq => hlt q.1 (List.of_mem_zip (a := q.1) (b := q.2) hq).1
  have e : (s.mapIdx (fun i si => if i < elems.length then
        (row.zip responses).foldl (fun acc p => if i = p.1 then acc + alpha * p.2 else acc) si else si)) =
      s.mapIdx (fun i si => si + ((row.zip responses).map (fun p => if i = p.1 then alpha * p.2 else 0)).sum) := by
    congr 1
    funext i si
    split
    · rw [fold_indicator]
    · next hge =>
      have : (row.zip responses).map (fun p => if i = p.1 then alpha * p.2 else 0) =
          (row.zip responses).map (fun _ => (0 : F)) := by
        refine List.map_congr_left (fun q hq => ?_)
        have := hz q hq
        rw [if_neg (by omega)]
      rw [this]; simp
  rw [e, dot_mapIdx_add]
  have hm : ((row.zip responses).map (·.1)).mapM (fun i => (elems ++ coms)[i]?) = some (gs.take responses.length) := by
    rw [map_fst_zip']
    exact mapM_take _ _ _ hrow' _
  rw [dot_fold s.length alpha _ _ _ hm (fun q hq => by have := hz q hq; omega)]
  have h2 : (row.zip responses).map (·.2) = responses.take gs.length := by
    rw [map_snd_zip', hlen]
  rw [h2, dot_take]
  module

/-- the combination `Σ alphas (j + k) • D k` -/
def comb (alphas : Nat → F) : Nat → List G → G
  | _, [] => 0
  | j, d :: ds => alphas j • d + comb alphas (j + 1) ds

theorem comb_sub (alphas : Nat → F) (j : Nat) (a b : List G) (h : a.length = b.length) :
    comb alphas j (List.zipWith (· - ·) a b) = comb alphas j a - comb alphas j b := by
  induction a generalizing b j with
  | nil => cases b with
    | nil => simp [comb]
    | cons => simp at h
  | cons x a ih => cases b with
    | nil => simp at h
    | cons y b =>
      simp only [List.zipWith_cons_cons, comb]
      rw [ih (j + 1) b (by simpa using h)]
      module

theorem comb_smul (alphas : Nat → F) (j : Nat) (c : F) (a : List G) :
    comb alphas j (a.map (c • ·)) = c • comb alphas j a := by
  induction a generalizing j with
  | nil => simp [comb]
  | cons x a ih => simp only [List.map_cons, comb, ih]; module

theorem collectRows_length (n : Nat) (r : List F) (alphas : Nat → F) (j : Nat) (rows : List (List Nat)) (s : List F) :
    (collectRows n r alphas j rows s).length = s.length := by
  induction rows generalizing j s with
  | nil => rfl
  | cons row rows ih => rw [collectRows, ih, collectRow_length]

theorem collectRhs_length (n : Nat) (c : F) (alphas : Nat → F) (j : Nat) (ts : List Nat) (s : List F) :
    (collectRhs n c alphas j ts s).length = s.length := by
  induction ts generalizing j s with
  | nil => rfl
  | cons t ts ih => rw [collectRhs, ih]; simp

theorem collectRows_dot (elems pre coms : List G) (responses : List F) (alphas : Nat → F) (rows : List (List Nat))
    (s : List F) (gss : List (List G)) (hrows : rows.mapM (fun row => row.mapM (fun i => elems[i]?)) = some gss)
    (hl : coms.length = rows.length) (hs : s.length = elems.length + (pre ++ coms).length) :
    sumOfProducts (collectRows elems.length responses alphas pre.length rows s) (elems ++ (pre ++ coms)) =
      sumOfProducts s (elems ++ (pre ++ coms)) +
        comb alphas pre.length (List.zipWith (· - ·) (gss.map (sumOfProducts responses)) coms) := by
  induction rows generalizing pre coms s gss with
  | nil => simp at hrows; subst hrows; simp [collectRows, comb]
  | cons row rows ih =>
    cases coms with
    | nil => simp at hl
    | cons com coms =>
      simp only [List.mapM_cons, Option.pure_def, Option.bind_eq_bind, Option.bind_eq_some_iff] at hrows
      obtain ⟨gs, hgs, gss', hgss', he⟩ := hrows
      simp only [Option.some.injEq] at he
      subst he
      rw [collectRows]
      have := ih (pre ++ [com]) coms (collectRow elems.length responses (alphas pre.length) pre.length row s) gss' hgss'
        (by simpa using hl) (by rw [collectRow_length, hs]; simp)
      simp only [List.append_assoc, List.length_append, List.length_cons, List.length_nil, Nat.zero_add, List.cons_append,
        List.nil_append] at this
      rw [this, collectRow_dot elems (pre ++ com :: coms) responses (alphas pre.length) pre.length row s gs com hgs
        (by simp) (by simpa using hs)]
      simp only [List.map_cons, List.zipWith_cons_cons, comb]
      abel

theorem collectRhs_dot (elems coms : List G) (c : F) (alphas : Nat → F) (j : Nat) (ts : List Nat) (s : List F)
    (gts : List G) (hts : ts.mapM (fun i => elems[i]?) = some gts) (hs : s.length = elems.length + coms.length) :
    sumOfProducts (collectRhs elems.length c alphas j ts s) (elems ++ coms) =
      sumOfProducts s (elems ++ coms) - c • comb alphas j gts := by
  induction ts generalizing j s gts with
  | nil => simp at hts; subst hts; simp [collectRhs, comb]
  | cons t ts ih =>
    simp only [List.mapM_cons, Option.pure_def, Option.bind_eq_bind, Option.bind_eq_some_iff] at hts
    obtain ⟨g, hg, gts', hgts', he⟩ := hts
    simp only [Option.some.injEq] at he
    subst he
    have ht : t < elems.length := (List.getElem?_eq_some_iff.mp hg).1
    rw [collectRhs, ih (j + 1) _ gts' hgts' (by simpa using hs)]
    have e : (s.mapIdx (fun i si => if i < elems.length ∧ i = t then si - alphas j * c else si)) =
        s.mapIdx (fun i si => si + if i = t then -(alphas j * c) else 0) := by
      congr 1
      funext i si
      by_cases hi : i = t
      · rw [if_pos ⟨by omega, hi⟩, if_pos hi]; ring
      · rw [if_neg (fun h => hi h.2), if_neg hi]; ring
    rw [e, dot_mapIdx_add, dot_indicator s.length t _ _ g (by omega) (by rw [List.getElem?_append_left ht]; exact hg)]
    simp only [comb]
    module

theorem dot_replicate_zero (n : Nat) (p : List G) : sumOfProducts (List.replicate n (0 : F)) p = 0 := by
  have := dot_map_zero (F := F) n p
  simpa using this

/-- The multi-exponentiation computed by the verifier: the combination of the defects of the rows. -/
theorem collectScalars_dot (elems coms : List G) (alphas : Nat → F) (matrix : List (List Nat)) (rhs : List Nat)
    (responses : List F) (c : F) (gss : List (List G)) (gts : List G)
    (hrows : matrix.mapM (fun row => row.mapM (fun i => elems[i]?)) = some gss)
    (hts : rhs.mapM (fun i => elems[i]?) = some gts)
    (hl : matrix.length = rhs.length) (hc : rhs.length = coms.length) :
    sumOfProducts (collectScalars alphas elems.length matrix rhs responses c) (elems ++ coms) =
      comb alphas 0 (List.zipWith (· - ·) (List.zipWith (· - ·) (gss.map (sumOfProducts responses)) coms)
        (gts.map (c • ·))) := by
  have hgl : gss.length = matrix.length := by
    clear hts hl hc
    induction matrix generalizing gss with
    | nil => simp at hrows; subst hrows; rfl
    | cons row rows ih =>
      simp only [List.mapM_cons, Option.pure_def, Option.bind_eq_bind, Option.bind_eq_some_iff] at hrows
      obtain ⟨gs, -, gss', hgss', he⟩ := hrows
      simp only [Option.some.injEq] at he
      subst he
      simp [ih gss' hgss']
  have htl : gts.length = rhs.length := (mapM_get_append rhs elems [] gts hts).2.2
  unfold collectScalars
  rw [collectRhs_dot elems coms c alphas 0 rhs _ gts hts (by rw [collectRows_length]; simp; omega)]
  have := collectRows_dot elems [] coms responses alphas matrix (List.replicate (elems.length + rhs.length) 0) gss hrows
    (by omega) (by simp; omega)
  simp only [List.nil_append, List.length_nil] at this
  rw [this, dot_replicate_zero, comb_sub alphas 0 (List.zipWith (· - ·) (gss.map (sumOfProducts responses)) coms)
    (gts.map (c • ·)) (by simp; omega), comb_smul]
  abel

theorem collectScalars_length (alphas : Nat → F) (n : Nat) (matrix : List (List Nat)) (rhs : List Nat)
    (responses : List F) (c : F) : (collectScalars alphas n matrix rhs responses c).length = n + rhs.length := by
  unfold collectScalars; rw [collectRhs_length, collectRows_length]; simp

theorem comb_zero_of_all (alphas : Nat → F) (j : Nat) (D : List G) (h : ∀ d ∈ D, d = 0) : comb alphas j D = 0 := by
  induction D generalizing j with
  | nil => rfl
  | cons d D ih =>
    rw [comb, h d List.mem_cons_self, ih (j + 1) (fun x hx => h x (List.mem_cons_of_mem _ hx))]; simp

theorem comb_congr (alphas alphas' : Nat → F) (j : Nat) (D : List G) (h : ∀ k, j ≤ k → alphas k = alphas' k) :
    comb alphas j D = comb alphas' j D := by
  induction D generalizing j with
  | nil => rfl
  | cons d D ih => rw [comb, comb, h j (Nat.le_refl _), ih (j + 1) (fun k hk => h k (by omega))]

theorem comb_update (alphas alphas' : Nat → F) (j k : Nat) (D : List G) (d : G) (hd : D[k]? = some d)
    (h : ∀ i, i ≠ j + k → alphas i = alphas' i) :
    comb alphas j D - comb alphas' j D = (alphas (j + k) - alphas' (j + k)) • d := by
  induction D generalizing j k with
  | nil => simp at hd
  | cons x D ih =>
    rw [comb, comb]
    cases k with
    | zero =>
      simp only [List.getElem?_cons_zero, Option.some.injEq] at hd
      subst hd
      rw [comb_congr alphas alphas' (j + 1) D (fun k hk => h k (by omega))]
      simp only [Nat.add_zero]
      module
    | succ k =>
      have := ih (j + 1) k (by simpa using hd) (fun i hi => h i (by omega))
      rw [h j (by omega)]
      have e : j + 1 + k = j + (k + 1) := by omega
      rw [e] at this
      rw [← this]; abel

theorem mapM_get_some (row : List Nat) (a : List G) (h : ∀ i ∈ row, i < a.length) :
    ∃ gs, row.mapM (fun i => a[i]?) = some gs := by
  induction row with
  | nil => exact ⟨[], by simp⟩
  | cons i row ih =>
    obtain ⟨gs, hgs⟩ := ih (fun j hj => h j (List.mem_cons_of_mem _ hj))
    have hi := h i List.mem_cons_self
    exact ⟨a[i] :: gs, by simp [List.mapM_cons, hgs, List.getElem?_eq_getElem hi]⟩

theorem mapM_some_get {α β : Type} (f : α → Option β) (l : List α) (m : List β) (h : l.mapM f = some m) :
    m.length = l.length ∧ ∀ (j : Nat) x, l[j]? = some x → ∃ y, f x = some y ∧ m[j]? = some y := by
  induction l generalizing m with
  | nil => simp at h; subst h; simp
  | cons a l ih =>
    simp only [List.mapM_cons, Option.pure_def, Option.bind_eq_bind, Option.bind_eq_some_iff] at h
    obtain ⟨b, hb, m', hm', he⟩ := h
    simp only [Option.some.injEq] at he
    subst he
    obtain ⟨h1, h2⟩ := ih m' hm'
    refine ⟨by simp [h1], fun j x hx => ?_⟩
    cases j with
    | zero =>
      simp only [List.getElem?_cons_zero, Option.some.injEq] at hx
      subst hx
      exact ⟨b, hb, by simp⟩
    | succ j =>
      obtain ⟨y, hy, hm⟩ := h2 j x (by simpa using hx)
      exact ⟨y, hy, by simpa using hm⟩

theorem mapM_some_of {α β : Type} (f : α → Option β) (l : List α) (h : ∀ x ∈ l, ∃ y, f x = some y) :
    ∃ m, l.mapM f = some m := by
  induction l with
  | nil => exact ⟨[], by simp⟩
  | cons a l ih =>
    obtain ⟨m, hm⟩ := ih (fun x hx => h x (List.mem_cons_of_mem _ hx))
    obtain ⟨b, hb⟩ := h a List.mem_cons_self
    exact ⟨b :: m, by simp [List.mapM_cons, hm, hb]⟩

/-- What the verifier computes: the combination, with the random coefficients, of the defects of the equations. -/
theorem verify_eq [DecidableEq G] (me : List F → List G → Res G) (H : Tr F G → F) (tr : Tr F G)
    (elems : List G) (matrix : List (List Nat)) (rhs : List Nat) (proof : Proof F G)
    (hme : ∀ s p, s.length = elems.length + rhs.length → me s p = .ok (sumOfProducts s p))
    (hv : Valid elems.length matrix rhs) (hc : rhs.length = proof.commitments.length) :
    ∃ D : List G, D.length = rhs.length ∧
      (∀ (j : Nat) row t com, matrix[j]? = some row → rhs[j]? = some t → proof.commitments[j]? = some com →
        ∃ g gt, lin elems row proof.responses = some g ∧ elems[t]? = some gt ∧
          D[j]? = some (g - com - H (challengePoint tr elems proof.commitments) • gt)) ∧
      ∀ alphas, verify me H tr alphas elems matrix rhs proof =
        if comb alphas 0 D = 0 then .ok (challengePoint tr elems proof.commitments ++ [.challenge]) else .err := by
  obtain ⟨hl, hm, ht⟩ := hv
  obtain ⟨gss, hgss⟩ := mapM_some_of (fun row : List Nat => row.mapM (fun i => elems[i]?)) matrix
    (fun row hrow => mapM_get_some row elems (hm row hrow))
  obtain ⟨gts, hgts⟩ := mapM_get_some rhs elems ht
  obtain ⟨l1, g1⟩ := mapM_some_get _ _ _ hgss
  obtain ⟨l2, g2⟩ := mapM_some_get _ _ _ hgts
  refine ⟨List.zipWith (· - ·) (List.zipWith (· - ·) (gss.map (sumOfProducts proof.responses)) proof.commitments)
    (gts.map (H (challengePoint tr elems proof.commitments) • ·)), ?_, ?_, fun alphas => ?_⟩
  rotate_left 2
  · have e : verify me H tr alphas elems matrix rhs proof =
        if sumOfProducts (collectScalars alphas elems.length matrix rhs proof.responses
          (H (challengePoint tr elems proof.commitments))) (elems ++ proof.commitments) = 0
        then .ok (challengePoint tr elems proof.commitments ++ [.challenge]) else .err := by
      unfold verify verifyScalars
      rw [if_pos ⟨hl, hc⟩]
      simp only [getChallenge, Res.bind_ok]
      rw [hme _ _ (collectScalars_length _ _ _ _ _ _)]
      simp only [Res.bind_ok]
      split <;> simp_all
    rw [e, collectScalars_dot elems proof.commitments alphas matrix rhs proof.responses _ gss gts hgss hgts hl hc]
  · simp; omega
  · intro j row t com hrow hrt hcom
    obtain ⟨gs, hgs, hj⟩ := g1 j row hrow
    obtain ⟨gt, hgt, hj2⟩ := g2 j t hrt
    refine ⟨sumOfProducts proof.responses gs, gt, by simp [lin, hgs], hgt, ?_⟩
    simp [List.getElem?_zipWith, hj, hj2, hcom]

theorem rowCommitment_ok (b : List F) (elems : List G) (row : List Nat) (gs : List G) (hl : row.length = b.length)
    (h : row.mapM (fun i => elems[i]?) = some gs) : rowCommitment b elems row = .ok (sumOfProducts b gs) := by
  unfold rowCommitment
  rw [if_pos hl]
  suffices H : ∀ acc : G, (row.zip b).foldlM (fun acc (p : Nat × F) => (do
      let e ← Res.unwrap elems[p.1]?
      return acc + p.2 • e : Res G)) acc = .ok (acc + sumOfProducts b gs) by
    rw [H 0, zero_add]
  induction row generalizing b gs with
  | nil =>
    intro acc
    cases b with
    | nil => simp [dot_nil]
    | cons => simp at hl
  | cons i row ih =>
    intro acc
    cases b with
    | nil => simp at hl
    | cons x b =>
      simp only [List.mapM_cons, Option.pure_def, Option.bind_eq_bind, Option.bind_eq_some_iff] at h
      obtain ⟨g, hg, gs', hgs', he⟩ := h
      simp only [Option.some.injEq] at he
      subst he
      have hu : Res.unwrap (elems[i]?) = .ok g := by rw [hg]; rfl
      rw [List.zip_cons_cons, List.foldlM_cons]
      simp only [hu, Res.bind_ok]
      rw [Res.pure_eq, Res.bind_ok]
      rw [ih b gs' (by simpa using hl) hgs' (acc + x • g), dot_cons, add_assoc]

theorem proofCommitments_ok (b : List F) (elems : List G) (matrix : List (List Nat)) (gss : List (List G))
    (hl : ∀ row ∈ matrix, row.length = b.length)
    (h : matrix.mapM (fun row => row.mapM (fun i => elems[i]?)) = some gss) :
    proofCommitments b elems matrix = .ok (gss.map (sumOfProducts b)) := by
  unfold proofCommitments
  induction matrix generalizing gss with
  | nil => simp at h; subst h; simp
  | cons row rows ih =>
    simp only [List.mapM_cons, Option.pure_def, Option.bind_eq_bind, Option.bind_eq_some_iff] at h
    obtain ⟨gs, hgs, gss', hgss', he⟩ := h
    simp only [Option.some.injEq] at he
    subst he
    rw [List.mapM_cons, rowCommitment_ok b elems row gs (hl row List.mem_cons_self) hgs,
      ih gss' (fun r hr => hl r (List.mem_cons_of_mem _ hr)) hgss']
    simp

theorem dot_zipWith_mul_add (s b : List F) (c : F) (p : List G) (h : s.length = b.length) :
    sumOfProducts (List.zipWith (fun s b => s * c + b) s b) p = c • sumOfProducts s p + sumOfProducts b p := by
  induction s generalizing b p with
  | nil => cases b with
    | nil => simp [dot_nil]
    | cons => simp at h
  | cons x s ih => cases b with
    | nil => simp at h
    | cons y b => cases p with
      | nil => simp [dot_nil_right]
      | cons g p =>
        simp only [List.zipWith_cons_cons, dot_cons]
        rw [ih b p (by simpa using h)]
        module

theorem dot_getD (n : Nat) (z : List F) (p : List G) (hp : p.length = n) :
    sumOfProducts ((List.range n).map (fun k => (z[k]?).getD 0)) p = sumOfProducts z p := by
  induction n generalizing z p with
  | zero =>
    obtain rfl := List.length_eq_zero_iff.mp hp
    simp [dot_nil_right]
  | succ n ih => cases p with
    | nil => simp at hp
    | cons g p =>
      rw [List.range_succ_eq_map, List.map_cons, List.map_map, dot_cons]
      cases z with
      | nil =>
        have := ih ([] : List F) p (by simpa using hp)
        have e : ((fun k => (([] : List F)[k]?).getD 0) ∘ Nat.succ) = fun k => (([] : List F)[k]?).getD 0 := by
          funext k; simp
        rw [e, this, dot_nil, dot_nil]; simp
      | cons x z =>
        have e : ((fun k => ((x :: z)[k]?).getD 0) ∘ Nat.succ) = fun k => (z[k]?).getD 0 := by
          funext k; simp
        rw [e, ih z p (by simpa using hp), dot_cons]; simp

theorem dot_extract (n : Nat) (z z' : List F) (c c' : F) (p : List G) (hp : p.length = n) :
    sumOfProducts (extract n z z' c c') p = (c - c')⁻¹ • (sumOfProducts z p - sumOfProducts z' p) := by
  unfold extract
  have e : (fun k : Nat => ((z[k]?).getD 0 - (z'[k]?).getD 0) / (c - c')) =
      fun k => (c - c')⁻¹ * (z[k]?).getD 0 + (-(c - c')⁻¹) * (z'[k]?).getD 0 := by funext k; ring
  have m1 : ∀ (d : F) (y : List F), sumOfProducts ((List.range n).map (fun k => d * (y[k]?).getD 0)) p =
      d • sumOfProducts y p := by
    intro d y
    have : (List.range n).map (fun k => d * (y[k]?).getD 0) = ((List.range n).map (fun k => (y[k]?).getD 0)).map (d * ·) := by
      simp
    rw [this, dot_map_mul, dot_getD n y p hp]
  rw [e, dot_map_add, m1, m1]
  module

theorem lin_some {elems : List G} {row : List Nat} {x : List F} {g : G} (h : lin elems row x = some g) :
    ∃ gs, row.mapM (fun i => elems[i]?) = some gs ∧ gs.length = row.length ∧ g = sumOfProducts x gs := by
  unfold lin at h
  cases hgs : row.mapM (fun i => elems[i]?) with
  | none => rw [hgs] at h; simp at h
  | some gs =>
    rw [hgs] at h
    exact ⟨gs, rfl, (mapM_get_append row elems [] gs hgs).2.2, by simpa using h.symm⟩

theorem Holds.valid {elems : List G} {matrix : List (List Nat)} {rhs : List Nat} {x : List F}
    (h : Holds elems matrix rhs x) : Valid elems.length matrix rhs ∧ (∀ row ∈ matrix, row.length = x.length) := by
  unfold Holds at h
  induction h with
  | nil => simp [Valid]
  | @cons row t rows ts h _ ih =>
    obtain ⟨hl, g, hg, hlin⟩ := h
    obtain ⟨gs, hgs, -, -⟩ := lin_some hlin
    obtain ⟨⟨h1, h2, h3⟩, h4⟩ := ih
    refine ⟨⟨by simp [h1], ?_, ?_⟩, ?_⟩
    · intro r hr
      rcases List.mem_cons.mp hr with rfl | hr
      · exact (mapM_get_append r elems [] gs hgs).2.1
      · exact h2 r hr
    · intro r hr
      rcases List.mem_cons.mp hr with rfl | hr
      · exact (List.getElem?_eq_some_iff.mp hg).1
      · exact h3 r hr
    · intro r hr
      rcases List.mem_cons.mp hr with rfl | hr
      · exact hl
      · exact h4 r hr

theorem Holds.get {elems : List G} {matrix : List (List Nat)} {rhs : List Nat} {x : List F}
    (h : Holds elems matrix rhs x) (j : Nat) (row : List Nat) (t : Nat) (hr : matrix[j]? = some row)
    (ht : rhs[j]? = some t) : ∃ g, elems[t]? = some g ∧ lin elems row x = some g := by
  unfold Holds at h
  induction h generalizing j with
  | nil => simp at hr
  | @cons row' t' rows ts h _ ih =>
    cases j with
    | zero =>
      simp only [List.getElem?_cons_zero, Option.some.injEq] at hr ht
      subst hr ht
      exact h.2
    | succ j => exact ih j (by simpa using hr) (by simpa using ht)

theorem holds_of_get {elems : List G} {matrix : List (List Nat)} {rhs : List Nat} {x : List F}
    (hl : matrix.length = rhs.length) (hrow : ∀ row ∈ matrix, row.length = x.length)
    (h : ∀ (j : Nat) row t, matrix[j]? = some row → rhs[j]? = some t →
      ∃ g, elems[t]? = some g ∧ lin elems row x = some g) : Holds elems matrix rhs x := by
  unfold Holds
  induction matrix generalizing rhs with
  | nil => cases rhs with
    | nil => exact .nil
    | cons => simp at hl
  | cons row rows ih => cases rhs with
    | nil => simp at hl
    | cons t ts =>
      exact .cons ⟨hrow row List.mem_cons_self, h 0 row t (by simp) (by simp)⟩
        (ih (by simpa using hl) (fun r hr => hrow r (List.mem_cons_of_mem _ hr))
          (fun j r u hr hu => h (j + 1) r u (by simpa using hr) (by simpa using hu)))

/-! ### C33 -/

/-- **C33.**  For every instance whose secrets satisfy the relation, whatever the blindings, the oracle, the transcript
so far and the verifier's coefficients, the prover's output is accepted, and prover and verifier leave the same
transcript. -/
theorem C33_complete [DecidableEq G] (me : List F → List G → Res G) (H : Tr F G → F) (tr : Tr F G) (elems : List G)
    (matrix : List (List Nat)) (rhs : List Nat) (secrets blindings : List F) (alphas : Nat → F)
    (hme : ∀ s p, s.length = elems.length + rhs.length → me s p = .ok (sumOfProducts s p))
    (hb : blindings.length = secrets.length) (h : Holds elems matrix rhs secrets) :
    ∃ proof tr', prove H tr blindings elems matrix secrets = .ok (proof, tr') ∧
      verify me H tr alphas elems matrix rhs proof = .ok tr' := by
  obtain ⟨hv, hrow⟩ := h.valid
  obtain ⟨gss, hgss⟩ := mapM_some_of (fun row : List Nat => row.mapM (fun i => elems[i]?)) matrix
    (fun row hr => mapM_get_some row elems (hv.2.1 row hr))
  obtain ⟨l1, g1⟩ := mapM_some_get _ _ _ hgss
  have hcoms := proofCommitments_ok blindings elems matrix gss (fun r hr => by rw [hb]; exact hrow r hr) hgss
  refine ⟨⟨gss.map (sumOfProducts blindings), List.zipWith (fun s b => s *
      H (challengePoint tr elems (gss.map (sumOfProducts blindings))) + b) secrets blindings⟩,
    challengePoint tr elems (gss.map (sumOfProducts blindings)) ++ [.challenge], ?_, ?_⟩
  · unfold prove
    rw [hcoms]
    rfl
  · obtain ⟨D, hD, hget, hver⟩ := verify_eq me H tr elems matrix rhs ⟨gss.map (sumOfProducts blindings),
      List.zipWith (fun s b => s * H (challengePoint tr elems (gss.map (sumOfProducts blindings))) + b) secrets blindings⟩
      hme hv (by simp [l1, hv.1])
    rw [hver alphas, if_pos]
    apply comb_zero_of_all
    intro d hd
    obtain ⟨j, hj, hdj⟩ := List.getElem_of_mem hd
    have hjm : j < matrix.length := by rw [hv.1]; omega
    have hjr : j < rhs.length := by omega
    have hrow' := List.getElem?_eq_getElem hjm
    obtain ⟨gs, hgs, hgj⟩ := g1 j _ hrow'
    obtain ⟨g, gt, e1, e2, e3⟩ := hget j matrix[j] rhs[j] (sumOfProducts blindings gs) hrow'
      (List.getElem?_eq_getElem hjr) (by simp [hgj])
    obtain ⟨gt', e4, e5⟩ := h.get j matrix[j] rhs[j] hrow' (List.getElem?_eq_getElem hjr)
    rw [e2] at e4
    obtain rfl := Option.some.inj e4
    rw [List.getElem?_eq_getElem hj, hdj] at e3
    rw [Option.some.inj e3]
    simp only [lin, hgs, Option.map_some, Option.some.injEq] at e1 e5
    rw [← e1, dot_zipWith_mul_add _ _ _ _ hb.symm, e5]
    abel

/-- With the default multi-exponentiation, below 800 elements and commitments. -/
theorem C33_complete_default_partial [DecidableEq G] (H : Tr F G → F) (tr : Tr F G) (elems : List G)
    (matrix : List (List Nat)) (rhs : List Nat) (secrets blindings : List F) (alphas : Nat → F)
    (hn : elems.length + rhs.length < 800)
    (hb : blindings.length = secrets.length) (h : Holds elems matrix rhs secrets) :
    ∃ proof tr', prove H tr blindings elems matrix secrets = .ok (proof, tr') ∧
      verify multiExpDefault H tr alphas elems matrix rhs proof = .ok tr' :=
  C33_complete multiExpDefault H tr elems matrix rhs secrets blindings alphas
    (fun s p hs => by unfold multiExpDefault; rw [if_pos (by omega)]) hb h

/-- From 800 elements and commitments on, verification by the default multi-exponentiation panics, whatever the proof. -/
theorem C33_large_instances_panic [DecidableEq G] (H : Tr F G → F) (tr : Tr F G) (elems : List G)
    (matrix : List (List Nat)) (rhs : List Nat) (proof : Proof F G) (alphas : Nat → F)
    (hn : 800 ≤ elems.length + rhs.length) :
    verify multiExpDefault H tr alphas elems matrix rhs proof = .panic := by
  unfold verify verifyScalars
  split
  · simp only [getChallenge, Res.bind_ok]
    unfold multiExpDefault
    rw [if_neg (by rw [collectScalars_length]; omega)]
    rfl
  · rfl

/-! ### C34 -/

/-- **C34.**  The verifier accepts with every choice of its coefficients exactly when every verification equation holds. -/
theorem C34_accepts_iff_equations [DecidableEq G] (me : List F → List G → Res G) (H : Tr F G → F) (tr : Tr F G)
    (elems : List G) (matrix : List (List Nat)) (rhs : List Nat) (proof : Proof F G)
    (hme : ∀ s p, s.length = elems.length + rhs.length → me s p = .ok (sumOfProducts s p))
    (hv : Valid elems.length matrix rhs) (hc : proof.commitments.length = rhs.length) :
    (∀ alphas, ∃ tr', verify me H tr alphas elems matrix rhs proof = .ok tr') ↔
      Equations elems matrix rhs proof.commitments proof.responses
        (H (challengePoint tr elems proof.commitments)) := by
  obtain ⟨D, hD, hget, hver⟩ := verify_eq me H tr elems matrix rhs proof hme hv hc.symm
  have key : ∀ alphas, (∃ tr', verify me H tr alphas elems matrix rhs proof = .ok tr') ↔ comb alphas 0 D = 0 := by
    intro alphas
    rw [hver]
    split <;> simp_all
  simp only [key]
  constructor
  · intro hall j row t com hrow ht hcom
    obtain ⟨g, gt, e1, e2, e3⟩ := hget j row t com hrow ht hcom
    refine ⟨g, gt, e1, e2, ?_⟩
    have := comb_update (fun i => if i = j then (1 : F) else 0) (fun _ => 0) 0 j D _ e3 (fun i hi => by
      simp only [Nat.zero_add] at hi; simp [hi])
    rw [hall, hall] at this
    simp only [Nat.zero_add, if_true, sub_zero, one_smul] at this
    rw [eq_comm, sub_eq_zero] at this
    rw [← this]; abel
  · intro heq alphas
    apply comb_zero_of_all
    intro d hd
    obtain ⟨j, hj, hdj⟩ := List.getElem_of_mem hd
    have hjm : j < matrix.length := by rw [hv.1]; omega
    have hjr : j < rhs.length := by omega
    have hjc : j < proof.commitments.length := by omega
    obtain ⟨g, gt, e1, e2, e3⟩ := hget j _ _ _ (List.getElem?_eq_getElem hjm) (List.getElem?_eq_getElem hjr)
      (List.getElem?_eq_getElem hjc)
    obtain ⟨g', gt', f1, f2, f3⟩ := heq j _ _ _ (List.getElem?_eq_getElem hjm) (List.getElem?_eq_getElem hjr)
      (List.getElem?_eq_getElem hjc)
    rw [e1] at f1; rw [e2] at f2
    obtain rfl := Option.some.inj f1
    obtain rfl := Option.some.inj f2
    rw [List.getElem?_eq_getElem hj, hdj] at e3
    rw [Option.some.inj e3, f3]; abel

/-- **C34.**  When an equation fails, there is a row such that, the other coefficients being fixed, at most one value of
the coefficient of that row makes the verifier accept: a uniform coefficient is accepted with probability at most one
over the size of the field. -/
theorem C34_wrong_proofs_accepted_rarely [DecidableEq G] (me : List F → List G → Res G) (H : Tr F G → F) (tr : Tr F G)
    (elems : List G) (matrix : List (List Nat)) (rhs : List Nat) (proof : Proof F G)
    (hme : ∀ s p, s.length = elems.length + rhs.length → me s p = .ok (sumOfProducts s p))
    (hv : Valid elems.length matrix rhs) (hc : proof.commitments.length = rhs.length)
    (hne : ¬ Equations elems matrix rhs proof.commitments proof.responses
        (H (challengePoint tr elems proof.commitments))) :
    ∃ j < matrix.length, ∀ alphas alphas' tr₁ tr₂, (∀ i, i ≠ j → alphas i = alphas' i) →
      verify me H tr alphas elems matrix rhs proof = .ok tr₁ →
      verify me H tr alphas' elems matrix rhs proof = .ok tr₂ → alphas j = alphas' j := by
  obtain ⟨D, hD, hget, hver⟩ := verify_eq me H tr elems matrix rhs proof hme hv hc.symm
  unfold Equations at hne
  push Not at hne
  obtain ⟨j, row, t, com, hrow, ht, hcom, hne⟩ := hne
  obtain ⟨g, gt, e1, e2, e3⟩ := hget j row t com hrow ht hcom
  refine ⟨j, (List.getElem?_eq_some_iff.mp hrow).1, fun alphas alphas' tr₁ tr₂ hag h1 h2 => ?_⟩
  have hz : ∀ a tr', verify me H tr a elems matrix rhs proof = .ok tr' → comb a 0 D = 0 := by
    intro a tr' h
    rw [hver] at h
    by_contra hcon
    rw [if_neg hcon] at h
    cases h
  have := comb_update alphas alphas' 0 j D _ e3 (fun i hi => hag i (by simpa using hi))
  rw [hz _ _ h1, hz _ _ h2, sub_zero, Nat.zero_add, eq_comm, smul_eq_zero] at this
  rcases this with h | h
  · exact sub_eq_zero.mp h
  · exact absurd (by rw [sub_sub, sub_eq_zero] at h; rw [h]; abel) (hne g gt e1 e2)

/-- **C34 (special soundness).**  From responses that satisfy the equations for the same commitments and two different
challenges, `extract` computes secrets satisfying the relation.  The responses may have any length: the verifier does not
check it. -/
theorem C34_special_sound (elems : List G) (matrix : List (List Nat)) (rhs : List Nat) (coms : List G) (n : Nat)
    (z z' : List F) (c c' : F) (hl : matrix.length = rhs.length) (hc : coms.length = rhs.length)
    (hrow : ∀ row ∈ matrix, row.length = n) (hne : c ≠ c')
    (h : Equations elems matrix rhs coms z c) (h' : Equations elems matrix rhs coms z' c') :
    Holds elems matrix rhs (extract n z z' c c') := by
  refine holds_of_get hl (fun r hr => by simp [extract, hrow r hr]) (fun j row t hr ht => ?_)
  have hj : j < coms.length := by rw [hc]; exact (List.getElem?_eq_some_iff.mp ht).1
  obtain ⟨g, gt, e1, e2, e3⟩ := h j row t _ hr ht (List.getElem?_eq_getElem hj)
  obtain ⟨g', gt', f1, f2, f3⟩ := h' j row t _ hr ht (List.getElem?_eq_getElem hj)
  rw [e2] at f2
  obtain rfl := Option.some.inj f2
  obtain ⟨gs, hgs, hlen, hg⟩ := lin_some e1
  obtain ⟨gs', hgs', -, hg'⟩ := lin_some f1
  rw [hgs] at hgs'
  obtain rfl := Option.some.inj hgs'
  refine ⟨gt, e2, ?_⟩
  have hrl : gs.length = n := by rw [hlen]; exact hrow row (List.mem_of_getElem? hr)
  simp only [lin, hgs, Option.map_some, Option.some.injEq]
  rw [dot_extract n z z' c c' gs hrl, ← hg, ← hg', e3, f3]
  have : c • gt + coms[j] - (c' • gt + coms[j]) = (c - c') • gt := by module
  rw [this, smul_smul, inv_mul_cancel₀ (sub_ne_zero.mpr hne), one_smul]

/-- **C34.**  The extractor against the verifier itself: two proofs with the same commitments, accepted (whatever the
coefficients) under oracles that differ at the challenge, give secrets satisfying the relation. -/
theorem C34_extract [DecidableEq G] (me : List F → List G → Res G) (H H' : Tr F G → F) (tr : Tr F G)
    (elems : List G) (matrix : List (List Nat)) (rhs : List Nat) (coms : List G) (z z' : List F) (n : Nat)
    (hme : ∀ s p, s.length = elems.length + rhs.length → me s p = .ok (sumOfProducts s p))
    (hv : Valid elems.length matrix rhs) (hrow : ∀ row ∈ matrix, row.length = n)
    (hne : H (challengePoint tr elems coms) ≠ H' (challengePoint tr elems coms))
    (h : ∀ alphas, ∃ tr', verify me H tr alphas elems matrix rhs ⟨coms, z⟩ = .ok tr')
    (h' : ∀ alphas, ∃ tr', verify me H' tr alphas elems matrix rhs ⟨coms, z'⟩ = .ok tr') :
    Holds elems matrix rhs
      (extract n z z' (H (challengePoint tr elems coms)) (H' (challengePoint tr elems coms))) := by
  have hc : coms.length = rhs.length := by
    obtain ⟨tr', ht⟩ := h (fun _ => 0)
    by_contra hcon
    unfold verify verifyScalars at ht
    rw [if_neg (fun hh => hcon hh.2.symm)] at ht
    cases ht
  exact C34_special_sound elems matrix rhs coms n z z' _ _ hv.1 hc hrow hne
    ((C34_accepts_iff_equations me H tr elems matrix rhs ⟨coms, z⟩ hme hv hc).mp h)
    ((C34_accepts_iff_equations me H' tr elems matrix rhs ⟨coms, z'⟩ hme hv hc).mp h')

/-! ### Concrete cases -/

section Examples

instance : Fact (Nat.Prime 101) := ⟨by norm_num⟩

/-- the field and the group of order 101; elements `[1, 7, 1·3 + 7·4 = 31]`, one row `x·1 + y·7 = 31` -/
abbrev exElems : List (ZMod 101) := [1, 7, 31]

theorem ex_holds : Holds (F := ZMod 101) exElems [[0, 1]] [2] [3, 4] := by
  refine .cons ⟨rfl, 31, rfl, ?_⟩ .nil
  decide +kernel

example : ∃ proof tr', prove (F := ZMod 101) (fun tr => tr.length) [] [5, 6] exElems [[0, 1]] [3, 4] = .ok (proof, tr') ∧
    verify (F := ZMod 101) multiExpDefault (fun tr => tr.length) [] (fun _ => 9) exElems [[0, 1]] [2] proof = .ok tr' :=
  C33_complete_default_partial _ [] exElems [[0, 1]] [2] [3, 4] [5, 6] _ (by decide) rfl ex_holds

/-- a wrong response is rejected -/
example : verify (F := ZMod 101) multiExpDefault (fun _ => 2) [] (fun _ => 9) exElems [[0, 1]] [2] ⟨[47], [11, 15]⟩ = .err := by
  decide +kernel

/-- two accepting transcripts (challenges 2 and 3, commitment `5·1 + 6·7 = 47`) give the secrets back -/
example : Equations (F := ZMod 101) exElems [[0, 1]] [2] [47] [11, 14] 2 ∧
    Equations (F := ZMod 101) exElems [[0, 1]] [2] [47] [14, 18] 3 ∧
    extract (F := ZMod 101) 2 [11, 14] [14, 18] 2 3 = [3, 4] := by
  refine ⟨?_, ?_, by decide +kernel⟩ <;>
  · intro j row t com h1 h2 h3
    have hj : j = 0 := by
      have := (List.getElem?_eq_some_iff.mp h1).1
      simpa using this
    subst hj
    simp only [List.getElem?_cons_zero, Option.some.injEq] at h1 h2 h3
    subst h1 h2 h3
    exact ⟨_, 31, rfl, rfl, by decide +kernel⟩

end Examples

end Verif.Sigma
