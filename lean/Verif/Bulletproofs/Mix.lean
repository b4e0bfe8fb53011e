import Mathlib.Algebra.BigOperators.Group.List.Basic
import Mathlib.Algebra.Polynomial.Roots
import Mathlib.Algebra.Polynomial.BigOperators
import Mathlib.Data.List.Perm.Basic
import Verif.Bulletproofs.Range64

/-!
Model of the mixing circuit of confidential multi-asset transfers, crypto/src/bulletproofs/mix.rs.
`MixVar F` is the value of a `MixVariable` or a `MixValue`: (amount, asset type).
-/

namespace Verif.R1cs

open Verif.Plonk (ScalarRepr)

/-- `MixVariable` / `MixValue`, mix.rs:44-51 and 96-102: amount and asset type -/
abbrev MixVar (F : Type) := F × F

/-! ### the prover's reordering, mix.rs:194-264 -/

section
variable {F : Type} [Field F] [DecidableEq F]

/-- `v.swap(j, k)`; both indices are in range wherever it is called -/
def swap {α : Type} (l : List α) (j k : Nat) : List α :=
  match l[j]?, l[k]? with
  | some a, some b => (l.set j b).set k a
  | _, _ => l

/-- the inner loop of `sort`, mix.rs:209-216: returns the list and the final `j` -/
def sortInner (t : F) (l : List (MixVar F)) (j swapIndex : Nat) : List (MixVar F) × Nat :=
  if h : j < swapIndex then
    match l[j]? with
    | some v =>
      if t = v.2 then sortInner t l (j + 1) swapIndex
      else sortInner t (swap l j swapIndex) j (swapIndex - 1)
    | none => (l, j)
  else (l, j)
termination_by swapIndex - j

omit [Field F] in
theorem sortInner_ge (t : F) (l : List (MixVar F)) (j k : Nat) : j ≤ (sortInner t l j k).2 := by
  induction hn : k - j generalizing l j k with
  | zero =>
    unfold sortInner
    rw [dif_neg (by omega)]
  | succ n ih =>
    unfold sortInner
    split
    · split
      · split
        · exact Nat.le_of_succ_le (ih _ _ _ (by omega))
        · exact ih _ _ _ (by omega)
      · exact Nat.le_refl _
    · exact Nat.le_refl _

/-- the outer loop of `sort`, mix.rs:205-218, from position `i`; `n` is `input.len()` -/
def sortOuter (n : Nat) (l : List (MixVar F)) (i : Nat) : List (MixVar F) :=
  if h : i < n then
    match l[i]? with
    | some v =>
      let r := sortInner v.2 l (i + 1) (n - 1)
      sortOuter n r.1 r.2
    | none => l
  else l
termination_by n - i
decreasing_by
  have := sortInner_ge v.2 l (i + 1) (n - 1)
  omega

/-- models `sort`, mix.rs:202-220 -/
def sort (input : List (MixVar F)) : List (MixVar F) := sortOuter input.length input 0

/-- the loop of `merge`, mix.rs:245-261, on (`intermediate`, `merged`, `prev`) -/
def mergeStep (s : List (MixVar F) × List (MixVar F) × MixVar F) (value : MixVar F) :
    List (MixVar F) × List (MixVar F) × MixVar F :=
  if value.2 = s.2.2.2 then
    (s.1 ++ [(s.2.2.1 + value.1, value.2)], s.2.1 ++ [(0, 0)], (s.2.2.1 + value.1, s.2.2.2))
  else (s.1 ++ [value], s.2.1 ++ [s.2.2], value)

/-- models `merge`, mix.rs:234-264 -/
def merge (sorted : List (MixVar F)) : Res (List (MixVar F) × List (MixVar F)) :=
  match sorted with
  | [] => .panic
  | [v] => .ok ([], [v])
  | v :: rest =>
    let s := rest.foldl mergeStep ([], [], v)
    match s.1.getLast? with
    | none => .panic
    | some x => .ok (s.1.dropLast, s.2.1 ++ [x])

end

/-! ### the gadgets -/

section
variable {F : Type} [Field F]

/-- `k` variables with given values, or without, mix.rs:305-337 -/
def allocatePair (v : Option (MixVar F)) : M F (MixVar F) := do
  let a ← allocate (v.map Prod.fst)
  let t ← allocate (v.map Prod.snd)
  pure (a, t)

/-- models `allocate_mix_vector`, mix.rs:305-337: `len` variables in the verifier, one per value in the prover -/
def allocateMixVector (list : Option (List (MixVar F))) (len : Nat) : M F (List (MixVar F)) :=
  match list with
  | none => forM' (List.replicate len ()) (fun acc _ => do
      let v ← allocatePair none
      pure (acc ++ [v])) []
  | some values => forM' values (fun acc v => do
      let v ← allocatePair (some v)
      pure (acc ++ [v])) []

/-- models `pad`, mix.rs:179-192: the new variables get the value zero from an honest prover and are not constrained -/
def pad (expectedLen : Nat) (list : List (MixVar F)) : M F (List (MixVar F)) :=
  forM' (List.replicate (expectedLen - list.length) ()) (fun acc _ => do
    let v ← allocatePair (some (0, 0))
    pure (acc ++ [v])) list

/-- the product computed by one half of `list_shuffle`, mix.rs:489-498 and 500-508: the last two elements first, then
down to the first -/
def shuffleProduct (l : List F) (challenge : F) : Res F :=
  match l.reverse with
  | a :: b :: rest => .ok (rest.foldl (fun prev v => prev * (v - challenge)) ((a - challenge) * (b - challenge)))
  | _ => .panic

/-- models `list_shuffle`, mix.rs:470-517: the values constrained to zero -/
def listShuffle (input permuted : List F) (challenge : F) : Res (List F) :=
  if input.length ≠ permuted.length then .err
  else match input, permuted with
    | [], _ => .ok []
    | [a], b :: _ => .ok [b - a]
    | _, _ => do
      let x ← shuffleProduct input challenge
      let y ← shuffleProduct permuted challenge
      pure [x - y]

/-- the closure of `mix_shuffle_gadget`, mix.rs:439-462 -/
def shuffleClosure (input permuted : List (MixVar F)) : Rand F := fun ch =>
  let both := input.zip permuted
  listShuffle (both.map fun p => p.1.1 + ch.1 * p.1.2) (both.map fun p => p.2.1 + ch.1 * p.2.2) ch.2.1

/-- models `mix_shuffle_gadget`, mix.rs:420-466 -/
def mixShuffle (input permuted : List (MixVar F)) : M F Nat :=
  if input.length ≠ permuted.length then fail
  else match input, permuted with
    | [], _ => pure 0
    | [a], b :: _ => do
      constrain (b.1 - a.1)
      constrain (b.2 - a.2)
      pure 0
    | _, _ => do
      specify (shuffleClosure input permuted)
      pure (input.length + 2 * (input.length - 1))

/-- the closure of `gate_mix_or_not`, mix.rs:393-413 -/
def gateClosure (in1 in2 out1 out2 : MixVar F) : Rand F := fun ch =>
  .ok [((in1.1 - out1.1) + (in1.2 - out1.2) * ch.1 + (in2.1 - out2.1) * ch.2.1 + (in2.2 - out2.2) * ch.2.2) *
    (out1.1 + (in1.2 - in2.2) * ch.1 + (out2.1 - in1.1 - in2.1) * ch.2.1 + (out2.2 - in1.2) * ch.2.2)]

/-- models `gate_mix_or_not`, mix.rs:386-416 -/
def gateMixOrNot (in1 in2 out1 out2 : MixVar F) : M F Nat := do
  specify (gateClosure in1 in2 out1 out2)
  pure 1

/-- the loop of mix.rs:373-375 over the four zipped iterators -/
def mergeGates : List (MixVar F) → List (MixVar F) → List (MixVar F) → List (MixVar F) → Nat → M F Nat
  | i1 :: in1, i2 :: in2, o1 :: out1, o2 :: out2, n => do
    let g ← gateMixOrNot i1 i2 o1 o2
    mergeGates in1 in2 out1 out2 (n + g)
  | _, _, _, _, n => pure n

/-- models `mix_merge_or_not_gadget`, mix.rs:341-378 -/
def mixMerge (sorted intermediate merged : List (MixVar F)) : M F Nat :=
  match sorted, merged with
  | [], _ => crash
  | _ :: _, [] => crash
  | [a], b :: _ => do
    constrain (a.1 - b.1)
    constrain (a.2 - b.2)
    pure 0
  | first :: rest, _ =>
    if sorted.length ≠ merged.length then crash
    else if sorted.length ≠ intermediate.length + 2 then crash
    else match merged.getLast? with
      | none => crash
      | some last => mergeGates (first :: intermediate) rest merged.dropLast (intermediate ++ [last]) 0

/-- lift a panic of a value computation into the circuit -/
def liftRes {α : Type} (r : Res α) : M F α := fun st =>
  match r with
  | .ok a => .ok (a, st)
  | .err => .err
  | .panic => .panic

/-- the part of `sort_and_merge` after the values are computed, mix.rs:287-301 -/
def sortAndMergeVars (vars : List (MixVar F)) (sorted : Option (List (MixVar F)))
    (merged : Option (List (MixVar F) × List (MixVar F))) : M F (Nat × List (MixVar F)) := do
  let sortedVars ← allocateMixVector sorted vars.length
  let interVars ← allocateMixVector (merged.map Prod.fst) (vars.length - 2)
  let mergedVars ← allocateMixVector (merged.map Prod.snd) vars.length
  let g1 ← mixShuffle vars sortedVars
  let g2 ← mixMerge sortedVars interVars mergedVars
  pure (g1 + g2, mergedVars)

/-- models `sort_and_merge`, mix.rs:267-302.  For one variable fresh variables are returned, without any constraint that
ties them to it (mix.rs:276-280). -/
def sortAndMerge [DecidableEq F] (vars : List (MixVar F)) (values : Option (List (MixVar F))) :
    M F (Nat × List (MixVar F)) :=
  match vars with
  | [] => pure (0, [])
  | [_] => do
    let vs ← allocateMixVector values 1
    pure (0, vs)
  | _ =>
    match values with
    | none => sortAndMergeVars vars none none
    | some v => do
      let m ← liftRes (merge (sort v))
      sortAndMergeVars vars (some (sort v)) (some m)

/-- the final loop of `mix`, mix.rs:166-173 -/
def mixRanges [ScalarRepr F] (outs : List (MixVar F)) (values : Option (List (MixVar F))) (n : Nat) : M F Nat :=
  match outs with
  | [] => pure n
  | out :: outs =>
    match values with
    | none => do
      let g ← rangeProof64 out.1 none
      mixRanges outs none (n + g)
    | some [] => crash
    | some (v :: vs) => do
      let g ← rangeProof64 out.1 (some v.1)
      mixRanges outs (some vs) (n + g)

/-- the branch of mix.rs:155-160 -/
def padShorter (inputLen outputLen : Nat) (mergedIn mergedOut : List (MixVar F)) :
    M F (List (MixVar F) × List (MixVar F)) :=
  if inputLen < outputLen then do
    let l ← pad outputLen mergedIn
    pure (l, mergedOut)
  else do
    let l ← pad inputLen mergedOut
    pure (mergedIn, l)

/-- models `mix`, mix.rs:131-176 -/
def mix [DecidableEq F] [ScalarRepr F] (ins : List (MixVar F)) (inValues : Option (List (MixVar F)))
    (outs : List (MixVar F)) (outValues : Option (List (MixVar F))) : M F Nat :=
  if ¬ ((0 < ins.length ∧ 0 < outs.length) ∨ outs.length = ins.length) then crash
  else if outs.length = 0 then pure 0
  else do
    let n ← sortAndMerge ins inValues
    let m ← sortAndMerge outs outValues
    let merged ← padShorter ins.length outs.length n.2 m.2
    let g ← mixShuffle merged.1 merged.2
    mixRanges outs outValues (n.1 + m.1 + g)

end
end Verif.R1cs
