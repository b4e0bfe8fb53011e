import Verif.Serde.Signed
import Verif.Anon.ConvertProps

/-!
Notes over byte strings, accepted by the verifiers with the real formats under the signatures.
-/

namespace Verif.Serde

open Verif.Xfr Verif.Anon Verif.SimFr

/-- objects that are their own bytes; points in the examples of conversions are read as numbers -/
@[reducible] def wireT : Types where
  F := ZMod ristretto.r
  G := ZMod ristretto.r
  CG := Bytes
  AT := { b : Bytes // b.length = 32 }
  PK := Bytes
  EK := Bytes
  Ct := WCt
  IP := Unit
  ACt := WCt
  IPf := WCac
  SC := Unit
  RP := Bytes
  AP := WCpx
  MP := Bytes
  TPf := WPeg
  OM := WMemo
  KP := Bytes
  Sg := Bytes × Bytes

def wireL : Leaves wireT := ⟨id, id, id, id, id, id, id, id, id, id, id, id⟩

theorem wireL_inj : wireL.Inj :=
  ⟨fun _ _ h => h, fun _ _ h => h, fun _ _ h => h, fun _ _ h => h, fun _ _ h => h, fun _ _ h => h, fun _ _ h => h, fun _ _ h => h,
    fun _ _ h => h, fun _ _ h => h, fun _ _ h => h, fun _ _ h => h⟩

/-- the key signs by writing its name under the message -/
@[reducible] def wireE : Ext wireT where
  decompress b := some (ofLE b : ZMod ristretto.r)
  compress x := leBytes 32 (ZMod.val (n := ristretto.r) x)
  identityC := []
  B := 1
  Bb := 7
  asScalar t := (ofLE t.1 : ZMod ristretto.r)
  proveRanges _ _ := none
  batchRanges l := l.isEmpty
  proveAsset _ _ _ := none
  batchAsset l := l.isEmpty
  proveMix _ _ := none
  batchMix l := l.isEmpty
  provePeg _ _ _ _ _ := ⟨[], [], [], []⟩
  batchPeg l := l.isEmpty
  acVerify _ _ _ _ := false
  ser b := some (serXfrBody rmp wireL b)
  pkBytes := id
  sigVerify pk m s := s == (pk, m)
  kpPub := id
  kpSign k m := some (k, m)

def wireType : wireT.AT := ⟨List.replicate 32 200, rfl⟩

/-- one public input of key 1, two public outputs, one of them with a memo -/
def wireBody (a b : UInt64) : XfrBody wireT where
  inputs := [⟨.plain 1000, .plain wireType, [1]⟩]
  outputs := [⟨.plain a, .plain wireType, [2]⟩, ⟨.plain b, .plain wireType, [3]⟩]
  amountProof := .noProof
  tracingProofs := []
  inputsIdentityProofs := [[]]
  outputsIdentityProofs := [[], []]
  tracingMemos := [[], [], []]
  ownersMemos := [none, some ⟨1, [1, 200], [5]⟩]

def wireNote : XfrNote wireT := ⟨wireBody 990 10, [([1], serXfrBody rmp wireL (wireBody 990 10))]⟩

def wirePolicies : Policies wireT := ⟨true, [[]], [none], [[], []], [none, none]⟩

theorem wireNote_accepted : wireE.batchVerifyNotes [wireNote] [wirePolicies] = some () := by decide +kernel

theorem wireNote_short : (serXfrBody rmp wireL wireNote.body).length < 2 ^ 32 := by decide +kernel

/-- the first bytes of the body: an array of five, an array of one record, an array of three, the amount as a map with the name of
the variant, and the decimal number 1000 -/
example : (serXfrBody rmp wireL (wireBody 990 10)).take 25 =
    [0x95, 0x91, 0x93, 0x81, 0xaf] ++ nonConfName ++ [0xa4, 49, 48, 48, 48] := by decide +kernel

/-- in bincode the record begins with the number of the variant and the length of the text -/
example : (serBar bincode wireL ⟨.plain 1000, .plain wireType, [1]⟩).take 16 =
    [1, 0, 0, 0, 4, 0, 0, 0, 0, 0, 0, 0, 49, 48, 48, 48] := by decide +kernel

/-- C97: another body has other bytes -/
example : serXfrBody rmp wireL (wireBody 990 10) ≠ serXfrBody rmp wireL (wireBody 980 20) := fun h => by
  have e := C97_transfer_bytes wireL_inj _ _ wireNote_short h
  exact absurd (congrArg (fun b => b.outputs.map (fun r => r.amount.getAmount)) e) (by decide)

/-! ### Conversions -/

def wireBls (x : ZMod Bls.r) : Bytes := leBytes 32 x.val

def wireSc (x : ZMod ristretto.r) : Bytes := leBytes 32 x.val

theorem wireBls_inj : Function.Injective wireBls := fun a b h => by
  have hr : Bls.r < 256 ^ 32 := by decide
  have ha := ZMod.val_lt a
  have hb := ZMod.val_lt b
  exact ZMod.val_injective _ (leBytes_inj (by omega) (by omega) h)

theorem wireSc_inj : Function.Injective wireSc := fun a b h => by
  have hr : ristretto.r < 256 ^ 32 := by decide
  have ha := ZMod.val_lt a
  have hb := ZMod.val_lt b
  exact ZMod.val_injective _ (leBytes_inj (by omega) (by omega) h)

/-- proofs are not looked at -/
def wireC : ConvExt wireT ristretto (ZMod Bls.r) Unit WPlonk where
  gens := ⟨1, 7⟩
  decompress b := some (ofLE b : ZMod ristretto.r)
  asNat t := ofLE t.1
  oracle _ := 1
  plonk _ _ _ _ := true
  sigVerify pk m s := s == (pk, m)

def wireProof : WPlonk := ⟨[[1], [2], [3], [4], [5]], [[6]], [7], [[8]], [9], [[10]], [11], [12]⟩

def wireAr : ArToAbarBody wireT (ZMod Bls.r) WPlonk := ⟨⟨.plain 1000, .plain wireType, [1]⟩, 77, wireProof, ([2, 3], [200, 5])⟩

def wireBar : BarToAbarBody wireT ristretto (ZMod Bls.r) WPlonk :=
  ⟨⟨.conf [3] [0], .conf [5], [1]⟩, 77, ⟨5, [1, 1], [(4, 0), (6, 0)]⟩, wireProof, ([2, 3], [200, 5])⟩

def wireArNote : ArToAbarNote wireT (ZMod Bls.r) WPlonk := ⟨wireAr, ([1], serArToAbar bincode wireL wireBls id wireAr)⟩

def wireBarNote : BarToAbarNote wireT ristretto (ZMod Bls.r) WPlonk :=
  ⟨wireBar, ([1], serBarToAbar bincode wireL wireBls id wireSc wireSc wireBar)⟩

theorem wireArNote_accepted :
    wireC.verifyArToAbar (fun b => some (serArToAbar bincode wireL wireBls id b)) () wireArNote = .ok () := by
  simp [ConvExt.verifyArToAbar, wireC, wireArNote, ConvExt.verifyArToAbarBody, wireAr]

theorem wireBarNote_accepted :
    wireC.verifyBarToAbar (fun b => some (serBarToAbar bincode wireL wireBls id wireSc wireSc b)) () wireBarNote [1] = .ok () := by
  have h4 : (4 : ZMod ristretto.r) = 3 + 1 := by norm_num
  have h6 : (6 : ZMod ristretto.r) = 5 + 1 := by norm_num
  simp [ConvExt.verifyBarToAbar, wireC, wireBarNote, ConvExt.verifyBarToAbarBody, wireBar, bothPlain, XfrAmount.isConfidential,
    XfrAssetType.isConfidential, ConvExt.recordComs, ConvExt.amountComs, ConvExt.typeCom, DelegatedSchnorr.verify,
    DelegatedSchnorr.checkAll, DelegatedSchnorr.commit, ofLE, inspectInput, combined2, h4, h6]

/-- C97: the three kinds of bodies have different bytes; also an `ArToAbar` body made, against the rules, for the confidential record -/
example : serXfrBody rmp wireL wireNote.body ≠ serArToAbar bincode wireL wireBls id wireAr ∧
    serArToAbar bincode wireL wireBls id wireAr ≠ serBarToAbar bincode wireL wireBls id wireSc wireSc wireBar ∧
    serArToAbar bincode wireL wireBls id { wireAr with input := wireBar.input } ≠
      serBarToAbar bincode wireL wireBls id wireSc wireSc wireBar :=
  ⟨(C97_transfer_or_conversion (L := wireL) (bls := wireBls) (pf := id) (pt := wireSc) (sc := wireSc) wireNote.body wireAr wireBar).1,
    C97_kind_of_conversion wireL_inj wireAr wireBar rfl rfl (by decide +kernel),
    C97_kind_by_proof wireL_inj (fun _ => leBytes_length _ _) { wireAr with input := wireBar.input } wireBar
      (by simp [wireAr, wireProof]) (by decide +kernel)⟩

/-- what key 1 has signed in these examples -/
def wireSigned (m : Bytes) : Prop :=
  m = serXfrBody rmp wireL wireNote.body ∨ m = serArToAbar bincode wireL wireBls id wireAr ∨
    m = serBarToAbar bincode wireL wireBls id wireSc wireSc wireBar

theorem wireApproves : Approves wireL wireBls id wireSc wireSc wireSigned {wireNote.body} {wireAr} {wireBar} where
  only m h := by
    rcases h with h | h | h
    · exact .inl ⟨_, rfl, h⟩
    · exact .inr (.inl ⟨_, rfl, h⟩)
    · exact .inr (.inr ⟨_, rfl, h⟩)
  ar_proof := by rintro _ rfl; rfl
  bar_conf := by rintro _ rfl; rfl

open Classical in
/-- C97 for a transfer and for the two conversions, with signatures of key 1 that verify only for what it has signed -/
example :
    let E : Ext wireT := { wireE with sigVerify := fun pk m s => decide (s = (pk, m) ∧ (pk = [1] → wireSigned m)) }
    let C : ConvExt wireT ristretto (ZMod Bls.r) Unit WPlonk :=
      { wireC with sigVerify := fun pk m s => decide (s = (pk, m) ∧ (pk = [1] → wireSigned m)) }
    (∀ n pol, E.verifyNote n pol = some () → n.body.inputs.map (·.publicKey) = [[1]] →
      (serXfrBody rmp wireL n.body).length < 2 ^ 32 → n.body = wireNote.body) ∧
    (∀ n, C.verifyArToAbar (fun b => some (serArToAbar bincode wireL wireBls id b)) () n = .ok () → n.body.input.publicKey = [1] →
      (serArToAbar bincode wireL wireBls id n.body).length < 2 ^ 32 → n.body = wireAr) ∧
    (∀ n, C.verifyBarToAbar (fun b => some (serBarToAbar bincode wireL wireBls id wireSc wireSc b)) () n [1] = .ok () →
      (serBarToAbar bincode wireL wireBls id wireSc wireSc n.body).length < 2 ^ 32 → n.body = wireBar) ∧
    C.verifyArToAbar (fun b => some (serArToAbar bincode wireL wireBls id b)) () wireArNote = .ok () := by
  intro E C
  have hun : ∀ m s, decide (s = (([1] : Bytes), m) ∧ (([1] : Bytes) = [1] → wireSigned m)) = true → wireSigned m := by
    intro m s h
    exact (of_decide_eq_true h).2 rfl
  refine ⟨fun n pol h hk hl => ?_, fun n h hk hl => ?_, fun n h hl => ?_, ?_⟩
  · obtain ⟨r, hr⟩ : ∃ r, n.body.inputs = [r] := by
      have := congrArg List.length hk
      simp only [List.length_map, List.length_singleton] at this
      exact List.length_eq_one_iff.mp this
    have hpk : r.publicKey = [1] := by rw [hr] at hk; simpa using hk
    exact C97_transfer_approved wireL_inj E (fun _ => rfl) [n] [pol] h n (by simp) hl r (by rw [hr]; simp)
      (by rw [hpk]; exact hun) wireApproves
  · exact C97_ar_to_abar_approved wireL_inj wireBls_inj (fun _ _ h => h) C () n h hl (by rw [hk]; exact hun) wireApproves
  · exact C97_bar_to_abar_approved wireL_inj wireBls_inj (fun _ _ h => h) wireSc_inj wireSc_inj (fun _ => leBytes_length _ _) C () n [1] h
      hl hun wireApproves
  · simp only [C, ConvExt.verifyArToAbar, wireC, wireArNote, ConvExt.verifyArToAbarBody, wireAr, Res.ofOption_some, Res.bind_ok]
    rw [if_pos]
    · rfl
    · exact decide_eq_true ⟨trivial, fun _ => .inr (.inl rfl)⟩

end Verif.Serde
