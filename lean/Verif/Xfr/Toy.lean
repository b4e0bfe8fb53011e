import Mathlib.Algebra.Field.Rat
import Mathlib.Algebra.Module.Prod
import Verif.Xfr.Model

/-!
A concrete instance of the external components, used only to show that the hypotheses of the theorems
can be met: scalars are rationals, a commitment is the pair (value, blinding), proofs are ideal checks.
-/

namespace Verif.Xfr

@[reducible] def toyT : Types where
  F := ℚ
  G := ℚ × ℚ
  CG := ℚ × ℚ
  AT := Nat
  PK := Nat
  EK := Nat
  Ct := Nat × ℚ × ℚ
  IP := Unit
  ACt := Unit
  IPf := Unit
  SC := Unit
  RP := Unit
  AP := Unit
  MP := Unit
  TPf := Unit
  OM := Unit
  KP := Nat
  Sg := Nat × Bytes

/-- value is a natural number below `2^32` -/
def toyInRange (q : ℚ) : Bool := q.den == 1 && decide (0 ≤ q.num) && decide (q.num < 2 ^ 32)

/-- sum of the amounts whose type is `t` -/
def toySum (t : ℚ) (l : List ((ℚ × ℚ) × (ℚ × ℚ))) : ℚ :=
  (l.map (fun e => if e.2.1 = t then e.1.1 else 0)).sum

@[reducible] def toyE : Ext toyT where
  decompress := some
  compress := id
  identityC := (0, 0)
  B := (1, 0)
  Bb := (0, 1)
  asScalar := fun n => (n : ℚ)
  proveRanges := fun vals blinds => some ((), List.zipWith (fun v b => ((v.toNat : ℚ), b)) vals blinds)
  batchRanges := fun l => l.all (fun e => e.2.all (fun c => toyInRange c.1))
  proveAsset := fun _ coms _ => if coms.length < 2 then none else some ()
  batchAsset := fun l => l.all (fun e => allEqual (e.1.map (·.1)))
  proveMix := fun _ _ => some ()
  batchMix := fun l => l.all (fun e => (e.1 ++ e.2.1).all (fun x => toySum x.2.1 e.1 == toySum x.2.1 e.2.1))
  provePeg := fun _ _ _ _ _ => ()
  batchPeg := fun l => l.all (fun e => e.2.1 == e.2.2.1.map (fun c => (e.1, c)))
  acVerify := fun _ _ _ _ => true
  ser := fun b => some [UInt8.ofNat b.inputs.length, UInt8.ofNat b.outputs.length]
  pkBytes := fun n => List.replicate n 0
  sigVerify := fun pk m s => s == (pk, m)
  kpPub := id
  kpSign := fun k m => some (k, m)

/-- a public record -/
def toyBar (a : UInt64) (t pk : Nat) : BlindAssetRecord toyT :=
  { amount := .plain a, assetType := .plain t, publicKey := pk }

/-- an opened public record without tracing -/
def toyRec (a : UInt64) (t pk : Nat) : AssetRecord toyT :=
  { oar := { bar := toyBar a t pk, amount := a, amountBlinds := (0, 0), assetType := t, typeBlind := 0 }
    tracingPolicies := [], identityProofs := [], tracersMemos := [], ownerMemo := none }

/-- an opened record with hidden amount and type (blindings 3, 4 and 5), no tracing -/
def toyConf (a : UInt64) (t pk : Nat) : AssetRecord toyT :=
  { oar :=
      { bar :=
          { amount := .conf ((splitU64 a).1.toNat, 3) ((splitU64 a).2.toNat, 4)
            assetType := .conf ((t : ℚ), 5), publicKey := pk }
        amount := a, amountBlinds := (3, 4), assetType := t, typeBlind := 5 }
    tracingPolicies := [], identityProofs := [], tracersMemos := [], ownerMemo := none }

end Verif.Xfr
