import Verif.Crypto.Sigma
import Verif.Crypto.ChaumPedersen
import Verif.Crypto.PedersenElGamal
import Verif.Crypto.ElGamal

/-!
# Sigma protocols and encryption: the theorems at concrete proofs

The theorems about the sigma protocols applied to proofs over the field and the group of order 101, with generators 1
and 7.  For the theorems that say how rarely a wrong proof passes, a wrong proof and unlucky randomness are given with which
it does pass.
-/

namespace Verif.Sigma

open Pippenger

/-- the verifier returned without an error -/
def passes {α : Type} : Res α → Bool
  | .ok _ => true
  | _ => false

/-- challenges: the length of the transcript -/
abbrev exH : Tr (ZMod 101) (ZMod 101) → ZMod 101 := fun tr => tr.length

theorem exMsm (s p : List (ZMod 101)) (n : Nat) (hn : n < 800) (h : s.length = n) :
    multiExpDefault s p = .ok (sumOfProducts s p) := by
  unfold multiExpDefault
  simp [h, hn]

example := C33_complete (multiExpDefault (F := ZMod 101)) exH [] exElems [[0, 1]] [2] [3, 4] [5, 6] (fun _ => 9)
  (fun s p h => exMsm s p _ (by decide) h) rfl ex_holds

example := C33_large_instances_panic (F := ZMod 101) exH [] (List.replicate 799 1) [[0, 1]] [2] ⟨[47], [11, 14]⟩ (fun _ => 9)
  (by rw [List.length_replicate]; decide)

theorem exValid : Valid 3 [[0, 1]] [2] := by
  unfold Valid; decide

theorem exEquations : Equations (F := ZMod 101) exElems [[0, 1]] [2] [47] [11, 14] 2 ∧
    Equations (F := ZMod 101) exElems [[0, 1]] [2] [47] [14, 18] 3 := by
  refine ⟨?_, ?_⟩ <;>
  · intro j row t com h1 h2 h3
    have hj : j = 0 := by
      have := (List.getElem?_eq_some_iff.mp h1).1
      simpa using this
    subst hj
    simp only [List.getElem?_cons_zero, Option.some.injEq] at h1 h2 h3
    subst h1 h2 h3
    exact ⟨_, 31, rfl, rfl, by decide +kernel⟩

example := (C34_accepts_iff_equations (multiExpDefault (F := ZMod 101)) (fun _ => 2) [] exElems [[0, 1]] [2] ⟨[47], [11, 14]⟩
  (fun s p h => exMsm s p _ (by decide) h) exValid rfl).mpr exEquations.1

/-- two rows, both wrong: random values 1 and -1 let the proof pass, other values do not -/
example : passes (verify (F := ZMod 101) multiExpDefault (fun _ => 2) [] (fun j => if j = 0 then 1 else -1) exElems [[0, 1], [0, 1]]
      [2, 2] ⟨[46, 46], [11, 14]⟩) = true ∧
    passes (verify (F := ZMod 101) multiExpDefault (fun _ => 2) [] (fun j => if j = 0 then 2 else -1) exElems [[0, 1], [0, 1]]
      [2, 2] ⟨[46, 46], [11, 14]⟩) = false ∧
    ∃ j < 2, ∀ alphas alphas' tr₁ tr₂, (∀ i, i ≠ j → alphas i = alphas' i) →
      verify (F := ZMod 101) multiExpDefault (fun _ => 2) [] alphas exElems [[0, 1], [0, 1]] [2, 2] ⟨[46, 46], [11, 14]⟩ = .ok tr₁ →
      verify (F := ZMod 101) multiExpDefault (fun _ => 2) [] alphas' exElems [[0, 1], [0, 1]] [2, 2] ⟨[46, 46], [11, 14]⟩ = .ok tr₂ →
      alphas j = alphas' j := by
  refine ⟨by decide +kernel, by decide +kernel, ?_⟩
  refine C34_wrong_proofs_accepted_rarely (multiExpDefault (F := ZMod 101)) (fun _ => 2) [] exElems [[0, 1], [0, 1]] [2, 2]
    ⟨[46, 46], [11, 14]⟩ (fun s p h => exMsm s p _ (by decide) h) (by unfold Valid; decide) rfl ?_
  intro h
  obtain ⟨r, x, hr, hx, h⟩ := h 0 [0, 1] 2 46 rfl rfl rfl
  revert h
  rw [show r = _ from (Option.some.inj hr).symm, show x = _ from (Option.some.inj hx).symm]
  decide +kernel

example := C34_special_sound (F := ZMod 101) exElems [[0, 1]] [2] [47] 2 [11, 14] [14, 18] 2 3 rfl rfl (by simp) (by decide +kernel)
  exEquations.1 exEquations.2

/-- the verifier accepts both runs for all random values; the secrets come out -/
example := C34_extract (multiExpDefault (F := ZMod 101)) (fun _ => 2) (fun _ => 3) [] exElems [[0, 1]] [2] [47] [11, 14] [14, 18] 2
  (fun s p h => exMsm s p _ (by decide) h) exValid (by simp) (by decide +kernel)
  ((C34_accepts_iff_equations _ (fun _ => 2) [] exElems [[0, 1]] [2] ⟨[47], [11, 14]⟩
    (fun s p h => exMsm s p _ (by decide) h) exValid rfl).mpr exEquations.1)
  ((C34_accepts_iff_equations _ (fun _ => 3) [] exElems [[0, 1]] [2] ⟨[47], [14, 18]⟩
    (fun s p h => exMsm s p _ (by decide) h) exValid rfl).mpr exEquations.2)

end Verif.Sigma

namespace Verif.ChaumPedersen

open Verif.Sigma

/-- commitments `3·1 + 4·7 = 31` and `3·1 + 5·7 = 38` to the same value -/
example := C35_eq_complete exGens exH [] [5, 6, 8] rfl (fun i => i + 3) 3 4 5 31 38 (by unfold Opens; decide +kernel)
  (by unfold Opens; decide +kernel)

/-- answers to the challenges 2 and 3 for the same commitments `5 + 7·6` and `5 + 7·8` -/
theorem exEq2 : Equations (F := ZMod 101) exGens 31 38 ⟨47, 61, 11, 14, 18⟩ 2 := by unfold Equations; decide +kernel

theorem exEq3 : Equations (F := ZMod 101) exGens 31 38 ⟨47, 61, 14, 18, 23⟩ 3 := by unfold Equations; decide +kernel

example := (C35_eq_accepts_iff exGens (fun _ => (2 : ZMod 101)) [] 31 38 ⟨47, 61, 11, 14, 18⟩).mpr exEq2

example := C35_eq_special_sound (F := ZMod 101) exGens 31 38 ⟨47, 61, 11, 14, 18⟩ ⟨47, 61, 14, 18, 23⟩ 2 3 rfl rfl (by decide +kernel)
  exEq2 exEq3

/-- a proof made for 31 and 38, checked for 30 and 37: it passes for unlucky random values only -/
example : passes (verifyEq (F := ZMod 101) exGens (fun _ => 2) [] (fun j => if j = 0 then 1 else -1) 30 37 ⟨47, 61, 11, 14, 18⟩) = true ∧
    ∃ j < 2, ∀ alphas alphas' tr₁ tr₂, (∀ i, i ≠ j → alphas i = alphas' i) →
      verifyEq (F := ZMod 101) exGens (fun _ => 2) [] alphas 30 37 ⟨47, 61, 11, 14, 18⟩ = .ok tr₁ →
      verifyEq (F := ZMod 101) exGens (fun _ => 2) [] alphas' 30 37 ⟨47, 61, 11, 14, 18⟩ = .ok tr₂ → alphas j = alphas' j := by
  refine ⟨by decide +kernel, ?_⟩
  refine C35_eq_wrong_accepted_rarely exGens (fun _ => (2 : ZMod 101)) [] 30 37 ⟨47, 61, 11, 14, 18⟩ ?_
  unfold Equations
  decide +kernel

/-- a proof for three commitments, accepted for all random values -/
example : ∃ p tr', proveMultiple (F := ZMod 101) exGens exH [] [5, 6, 8] [9, 10, 11] 3 [31, 38, 45] [4, 5, 6] = .ok (p, tr') ∧
    Equations exGens 31 38 p.c1_eq_c2 (exH (eqPoint exGens (initMultiple exGens [] [31, 38, 45]) 31 38 p.c1_eq_c2)) := by
  have key : ∀ al1 al2, ∃ p tr', proveMultiple (F := ZMod 101) exGens exH [] [5, 6, 8] [9, 10, 11] 3 [31, 38, 45] [4, 5, 6] =
      .ok (p, tr') ∧ verifyMultiple exGens exH [] al1 al2 [31, 38, 45] p = .ok tr' := fun al1 al2 =>
    C35_multiple_complete exGens exH [] [5, 6, 8] [9, 10, 11] rfl rfl al1 al2 3 [31, 38, 45] [4, 5, 6]
      (.cons (by unfold Opens; decide +kernel) (.cons (by unfold Opens; decide +kernel)
        (.cons (by unfold Opens; decide +kernel) .nil))) (by simp)
  obtain ⟨p, tr', h, -⟩ := key (fun _ => 0) (fun _ => 0)
  refine ⟨p, tr', h, ((C35_multiple_accepts_iff exGens exH [] 31 38 [45] (by simp) p).mp fun al1 al2 => ?_).1⟩
  obtain ⟨q, tr'', h1, h2⟩ := key al1 al2
  rw [h] at h1
  cases h1
  exact ⟨_, h2⟩

/-- the runs of the example beside the theorem, for the value 3 and the blinding factor 4 -/
def exBase : ZeroRun (ZMod 101) (ZMod 101) :=
  ⟨[1, 2], ⟨5 + 7 * 6, 5 + 7 * 8, 5, -5 * 2 + 6, 8⟩, ⟨5 + 7 * 6, 5 + 7 * 8, 5, -5 * 3 + 6, 8⟩, 2, 3⟩

def exRun : ZeroRun (ZMod 101) (ZMod 101) :=
  ⟨[1, 3], ⟨5 + 7 * 6, 5 + 7 * 8, 5, -7 * 2 + 6, 8⟩, ⟨5 + 7 * 6, 5 + 7 * 8, 5, -7 * 3 + 6, 8⟩, 2, 3⟩

theorem exBase_accepted : exBase.Accepted exGens 31 [38, 45] := by unfold exBase ZeroRun.Accepted Equations; decide +kernel

theorem exRun_accepted : exRun.Accepted exGens 31 [38, 45] := by unfold exRun ZeroRun.Accepted Equations; decide +kernel

/-- the second of the combined commitments, 45, is shown to open to 3 -/
example := C35_multiple_extract (F := ZMod 101) exGens 31 [38, 45] 3 4 (by unfold Opens; decide +kernel) exBase exRun exBase_accepted
  exRun_accepted 1 45 rfl 2 3 rfl rfl (by decide +kernel)
  (by intro i hi; match i with | 0 => rfl | 1 => exact absurd rfl hi | n + 2 => rfl)

example := C35_multiple_extract_first (F := ZMod 101) exGens 31 38 [45] 3 4 (by unfold Opens; decide +kernel) [6]
  (.cons (by unfold Opens; decide +kernel) .nil) [2] exBase rfl exBase_accepted

/-- in the line spanned by `(1, 0)`: `(1, 0) - (0, 1)` is outside, so at most one coefficient brings the combination inside; with
the single coefficient 0 the combination is 0 -/
example := C35_combination_exceptional (Submodule.span (ZMod 101) {((1, 0) : ZMod 101 × ZMod 101)}) (1, 0) [(0, 1)] 0 (0, 1) rfl
  (by
    intro h
    obtain ⟨a, ha⟩ := Submodule.mem_span_singleton.mp h
    have := congrArg Prod.snd ha
    simp at this) [0] [0] 0 0 rfl rfl (fun _ _ => rfl) (by simp [combine]) (by simp [combine])

/-- a right proof, alone in a batch -/
example := (C35_batch_iff exGens (fun _ => (2 : ZMod 101)) [] [([31, 38], ⟨⟨47, 61, 11, 14, 18⟩, none⟩)]).mpr
  (by
    intro i hi al1 al2
    rw [List.mem_singleton.mp hi]
    obtain ⟨tr', h⟩ := (C35_eq_accepts_iff exGens (fun _ => (2 : ZMod 101)) (initMultiple exGens [] [31, 38]) 31 38
      ⟨47, 61, 11, 14, 18⟩).mpr exEq2 al1
    refine ⟨tr', ?_⟩
    unfold verifyMultiple
    simp only [h, Res.bind_ok, noZero]
    rfl)

/-- a wrong proof, with random values of the sigma protocol and a factor of the batch -/
def wrongInst : List (ZMod 101) × ProofX (ZMod 101) (ZMod 101) := ([30, 38], ⟨⟨47, 61, 11, 14, 18⟩, none⟩)

def exCoins (o : ZMod 101) : Coins (ZMod 101) := ⟨fun _ => 1, fun _ => 1, 1, o⟩

/-- two instances with the same defect pass together if their factors are opposite, and then only -/
example (o' : ZMod 101)
    (h : batchVerify exGens (fun _ => (2 : ZMod 101)) [] ([(wrongInst, exCoins 1)] ++ (wrongInst, { exCoins 0 with outer := o' }) :: []) =
      .ok ()) : -1 = o' :=
  C35_batch_wrong_accepted_rarely exGens (fun _ => (2 : ZMod 101)) [] [(wrongInst, exCoins 1)] [] wrongInst (exCoins 0) (-1) o'
    (by intro j hj; simp [wrongInst] at hj; rcases hj with rfl | rfl <;> simp [Shaped])
    (by decide +kernel) (by decide +kernel) h

example := C35_batch_short_panics (F := ZMod 101) exGens exH [] [31] (by decide) ⟨⟨47, 61, 11, 14, 18⟩, none⟩ (exCoins 1) []

example := C35_shape_required (F := ZMod 101) exGens exH [] [31, 38, 45] ⟨⟨47, 61, 11, 14, 18⟩, none⟩ (by simp [Shaped])

end Verif.ChaumPedersen

namespace Verif.PedersenElGamal

open Verif.Sigma Verif.ChaumPedersen

/-- message 3, randomness 4, public key 20: the ciphertext `(4, 3 + 4·20)` and the commitment `3 + 4·7` -/
theorem exStmt : Stmt (F := ZMod 101) exGens 20 ⟨4, 83⟩ 31 3 4 := by unfold Stmt; decide +kernel

example := C36_eq_complete exGens exH [] [5, 6] rfl (fun i => i + 3) 3 4 20 ⟨4, 83⟩ 31 exStmt

/-- answers to the challenges 2 and 3 -/
theorem exEqn2 : Equations (F := ZMod 101) exGens 20 ⟨4, 83⟩ 31 ⟨11, 14, ⟨6, 24⟩, 47⟩ 2 := by unfold Equations; decide +kernel

theorem exEqn3 : Equations (F := ZMod 101) exGens 20 ⟨4, 83⟩ 31 ⟨14, 18, ⟨6, 24⟩, 47⟩ 3 := by unfold Equations; decide +kernel

example := (C36_eq_accepts_iff exGens (fun _ => (2 : ZMod 101)) [] 20 ⟨4, 83⟩ 31 ⟨11, 14, ⟨6, 24⟩, 47⟩).mpr exEqn2

example := C36_special_sound (F := ZMod 101) exGens 20 ⟨4, 83⟩ 31 ⟨11, 14, ⟨6, 24⟩, 47⟩ ⟨14, 18, ⟨6, 24⟩, 47⟩ 2 3 rfl rfl
  (by decide +kernel) exEqn2 exEqn3

example := C36_aggregate_linear (F := ZMod 101) exGens 20 [1, 9] _ _ _ _ ex_stmts

/-- a right proof, alone in a batch -/
example := (C36_batch_iff exGens (fun _ => (2 : ZMod 101)) [] [⟨20, [⟨4, 83⟩], [31], ⟨11, 14, ⟨6, 24⟩, 47⟩⟩] (by simp)).mpr
  (by
    intro i hi
    rw [List.mem_singleton.mp hi]
    unfold Equations
    decide +kernel)

/-- the proof with a changed ciphertext -/
def wrongInst : Instance (ZMod 101) (ZMod 101) := ⟨20, [⟨4, 84⟩], [31], ⟨11, 14, ⟨6, 24⟩, 47⟩⟩

/-- two wrong instances pass together if their factors are opposite, and then only -/
example (a : ZMod 101)
    (h : batchVerify exGens (fun _ => (2 : ZMod 101)) [] ([(wrongInst, ⟨1, fun _ => 1⟩)] ++ (wrongInst, ⟨a, fun _ => 1⟩) :: []) = .ok ()) :
    -1 = a :=
  C36_batch_wrong_accepted_rarely exGens (fun _ => (2 : ZMod 101)) [] [(wrongInst, ⟨1, fun _ => 1⟩)] [] wrongInst (fun _ => 1) (-1) a
    (by intro j hj; simp [wrongInst] at hj; rcases hj with rfl | rfl <;> rfl)
    (by decide +kernel) (by decide +kernel) h

/-- combinations with the coefficients (1, 2) and (1, 3) of the two statements of `ex_stmts`: the second one comes out -/
example := C36_aggregate_extract (F := ZMod 101) exGens 20 [⟨4, 83⟩, ⟨2, 45⟩] [31, 19] [1, 2] [1, 3] 1 2 3 rfl rfl (by decide +kernel)
  (by intro i hi; match i with | 0 => rfl | 1 => exact absurd rfl hi | n + 2 => rfl) ⟨2, 45⟩ 19 rfl rfl
  (lc [1, 2] [3, 5]) (lc [1, 2] [4, 2]) (lc [1, 3] [3, 5]) (lc [1, 3] [4, 2])
  (C36_aggregate_linear exGens 20 [1, 2] _ _ _ _ ex_stmts) (C36_aggregate_linear exGens 20 [1, 3] _ _ _ _ ex_stmts)

/-- and the first one, from the second -/
example := C36_aggregate_extract_first (F := ZMod 101) exGens 20 ⟨4, 83⟩ [⟨2, 45⟩] 31 [19] [2] [5] [2]
  (by simp only [Stmts, Stmt, and_true]; decide +kernel) (lc [1, 2] [3, 5]) (lc [1, 2] [4, 2])
  (C36_aggregate_linear exGens 20 [1, 2] _ _ _ _ ex_stmts)

example := C36_lengths_panic (F := ZMod 101) exGens exH [] ⟨20, [⟨4, 83⟩], [31, 19], ⟨11, 14, ⟨6, 24⟩, 47⟩⟩ ⟨1, fun _ => 1⟩ (by simp)

end Verif.PedersenElGamal

namespace Verif.ElGamal

open Verif.Sigma

example := (C37_verify_unique (F := ZMod 101) (1 : ZMod 101) (by decide +kernel) ⟨4, 83⟩ 20 3).1.mpr (by decide +kernel)

example := (C37_verify_unique (F := ZMod 101) (1 : ZMod 101) (by decide +kernel) ⟨4, 83⟩ 20 3).2 3 (by decide +kernel) (by decide +kernel)

example := C37_wrong_key (F := ZMod 101) (1 : ZMod 101) (by decide +kernel) 20 21 3 4 (by decide +kernel) (by decide +kernel)

/-- numbers below 97 in 32 bytes -/
example := C37_bytes_round_trip (G := ZMod 97) (fun p => leBytes 32 p.val) (fun b => some (ofLE b : ZMod 97)) (fun g => by simp)
  (fun g => by
    show some ((ofLE (leBytes 32 g.val) : Nat) : ZMod 97) = some g
    rw [ofLE_leBytes_of_lt (lt_of_lt_of_le (ZMod.val_lt g) (by norm_num))]
    simp) ⟨5, 6⟩

example := C37_bad_length_panics (G := ZMod 97) (fun b => some (ofLE b : ZMod 97)) (List.replicate 63 1) (by decide) (fun _ => ⟨_, rfl⟩)

end Verif.ElGamal
