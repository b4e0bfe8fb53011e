import Verif.Xfr.Model

/-!
Specification vocabulary for transfers, written without the helpers of the model.
-/

namespace Verif.Xfr.Spec

open Verif.Xfr

variable {S : Types}

/-- amount and type of the record are both public -/
def IsPublic (r : BlindAssetRecord S) (t : S.AT) (a : UInt64) : Prop :=
  r.amount = .plain a ∧ r.assetType = .plain t

/-- the amount is hidden -/
def HidesAmount (r : BlindAssetRecord S) : Prop := ∃ lo hi, r.amount = .conf lo hi

/-- the asset type is hidden -/
def HidesType (r : BlindAssetRecord S) : Prop := ∃ c, r.assetType = .conf c

/-- units of asset type `t` held publicly by the record -/
def units [DecidableEq S.AT] (t : S.AT) (r : BlindAssetRecord S) : Nat :=
  match r.amount, r.assetType with
  | .plain a, .plain t' => if t' = t then a.toNat else 0
  | _, _ => 0

/-- units of asset type `t` held publicly by a list of records -/
def publicTotal [DecidableEq S.AT] (t : S.AT) (rs : List (BlindAssetRecord S)) : Nat :=
  (rs.map (units t)).sum

/-- units of asset type `t` in a list of opened records -/
def openTotal [DecidableEq S.AT] (t : S.AT) (rs : List (AssetRecord S)) : Nat :=
  (rs.map (fun r => if r.oar.assetType = t then r.oar.amount.toNat else 0)).sum

/-- public amount, zero when hidden -/
def publicAmount (r : BlindAssetRecord S) : Nat :=
  match r.amount with
  | .plain a => a.toNat
  | .conf _ _ => 0

end Verif.Xfr.Spec
