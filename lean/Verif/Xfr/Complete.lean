import Mathlib.Tactic.LinearCombination
import Verif.Xfr.Amount

/-!
Properties C16 (what is *not* guaranteed), C17 (amounts and types): honestly generated proofs are accepted.
-/

namespace Verif.Xfr

open Spec

section Defs

variable {S : Types} [Field S.F] [AddCommGroup S.G] [Module S.F S.G]

namespace Spec

/-- the opened record matches its public part: commitments of hidden fields commit to the opened values with
the record's blindings, public fields carry the opened values and have zero blindings.  (That the record
builders establish this is proved in `Verif/Xfr/Record.lean`.) -/
structure WellFormed (E : Ext S) (o : OpenAssetRecord S) : Prop where
  amount : match o.bar.amount with
    | .conf lo hi =>
      E.decompress lo = some (((o.amount.toNat % 2 ^ 32 : Nat) : S.F) • E.B + o.amountBlinds.1 • E.Bb) ∧
      E.decompress hi = some (((o.amount.toNat / 2 ^ 32 : Nat) : S.F) • E.B + o.amountBlinds.2 • E.Bb)
    | .plain a => a = o.amount ∧ o.amountBlinds = (0, 0)
  assetType : match o.bar.assetType with
    | .conf c => E.decompress c = some (E.asScalar o.assetType • E.B + o.typeBlind • E.Bb)
    | .plain t => t = o.assetType ∧ o.typeBlind = 0

/-- Point compression is a bijection onto the accepted encodings. -/
structure Encoding (E : Ext S) : Prop where
  dec_comp : ∀ g, E.decompress (E.compress g) = some g
  comp_dec : ∀ c g, E.decompress c = some g → E.compress g = c
  identity : E.identityC = E.compress 0

open Classical in
/-- Completeness of the external proof systems: the honest prover's output is accepted by the verifier run on
that proof alone. -/
structure Complete (E : Ext S) : Prop where
  /-- range prover: returns the commitments, and the proof is accepted when all values are below `2^32` -/
  ranges : ∀ vals blinds rp coms, E.proveRanges vals blinds = some (rp, coms) →
    vals.length = blinds.length →
    coms = List.zipWith (fun (v : UInt64) b => E.compress ((v.toNat : S.F) • E.B + b • E.Bb)) vals blinds ∧
    ((∀ v ∈ vals, v.toNat < 2 ^ 32) → E.batchRanges [(rp, coms)] = true)
  /-- equality prover: commitments to the same value -/
  asset : ∀ v blinds pf, E.proveAsset v (blinds.map (fun b => v • E.B + b • E.Bb)) blinds = some pf →
    E.batchAsset [(blinds.map (fun b => v • E.B + b • E.Bb), pf)] = true
  /-- mixing prover, for balanced inputs and outputs: commitments to amounts and types -/
  mix : ∀ ins outs pf, E.proveMix ins outs = some pf →
    (∀ t, (ins.map (fun e => if e.2.1 = t then e.1.toNat else 0)).sum =
      (outs.map (fun e => if e.2.1 = t then e.1.toNat else 0)).sum) →
    E.batchMix [(
      ins.map (fun e => (E.compress ((e.1.toNat : S.F) • E.B + e.2.2.1 • E.Bb),
        E.compress (e.2.1 • E.B + e.2.2.2 • E.Bb))),
      outs.map (fun e => (E.compress ((e.1.toNat : S.F) • E.B + e.2.2.1 • E.Bb),
        E.compress (e.2.1 • E.B + e.2.2.2 • E.Bb))), pf)] = true

/-- a batch verifier accepts exactly the lists whose members it accepts one by one (true of the random linear
combination verifiers up to their statistical error) -/
structure Batching (E : Ext S) : Prop where
  ranges : ∀ l, E.batchRanges l = l.all (fun e => E.batchRanges [e])
  asset : ∀ l, E.batchAsset l = l.all (fun e => E.batchAsset [e])
  mix : ∀ l, E.batchMix l = l.all (fun e => E.batchMix [e])
  peg : ∀ l, E.batchPeg l = l.all (fun e => E.batchPeg [e])

end Spec

end Defs

section

variable {S : Types} [Field S.F] [AddCommGroup S.G] [Module S.F S.G] [DecidableEq S.CG]
  [DecidableEq S.AT] [DecidableEq S.EK] (E : Ext S)

omit [Field S.F] [AddCommGroup S.G] [Module S.F S.G] [DecidableEq S.CG] [DecidableEq S.AT]
  [DecidableEq S.EK] in
theorem le_minPow2 (n : Nat) : n ≤ minPow2 n := by
  unfold minPow2
  split
  · omega
  · exact Nat.le_pow_clog (by omega) n

omit [Field S.F] [AddCommGroup S.G] [Module S.F S.G] [DecidableEq S.CG] [DecidableEq S.AT]
  [DecidableEq S.EK] in
theorem sumU64_eq (l : List UInt64) (acc r : UInt64)
    (h : l.foldlM (fun acc x => if acc.toNat + x.toNat < 2 ^ 64 then some (acc + x) else none) acc = some r) :
    r.toNat = acc.toNat + (l.map UInt64.toNat).sum := by
  induction l generalizing acc with
  | nil => simp at h; subst h; simp
  | cons a l ih =>
    rw [List.foldlM_cons] at h
    split at h
    · rename_i hlt
      simp only [Option.bind_eq_bind, Option.bind_some] at h
      rw [ih _ h, UInt64.toNat_add, Nat.mod_eq_of_lt hlt]
      simp; omega
    · simp at h

/-- opening of a well-formed record -/
def openingOf (o : OpenAssetRecord S) : Opening S :=
  ⟨o.amount.toNat % 2 ^ 32, o.amount.toNat / 2 ^ 32, o.amountBlinds.1, o.amountBlinds.2⟩

omit [Field S.F] [AddCommGroup S.G] [Module S.F S.G] [DecidableEq S.CG] [DecidableEq S.AT]
  [DecidableEq S.EK] in
theorem openingOf_value (o : OpenAssetRecord S) : (openingOf o).value = o.amount.toNat := by
  unfold openingOf Opening.value
  simp only
  omega

omit [DecidableEq S.CG] [DecidableEq S.AT] [DecidableEq S.EK] in
theorem opens_of_wf (o : OpenAssetRecord S) (h : WellFormed E o) : Opens E o.bar.amount (openingOf o) := by
  have hlt := o.amount.toNat_lt
  have h1 := h.amount
  refine ⟨by unfold openingOf; simp only; omega, by unfold openingOf; simp only; omega, ?_⟩
  cases ha : o.bar.amount with
  | conf lo hi => rw [ha] at h1; exact h1
  | plain a =>
    rw [ha] at h1
    simp only at h1 ⊢
    rw [openingOf_value, h1.1]
    unfold openingOf
    simp [h1.2]

omit [DecidableEq S.CG] [DecidableEq S.AT] [DecidableEq S.EK] in
theorem opens_list (l : List (OpenAssetRecord S)) (h : ∀ o ∈ l, WellFormed E o) :
    List.Forall₂ (fun r o => Opens E r.amount o) (l.map (·.bar)) (l.map openingOf) := by
  induction l with
  | nil => exact .nil
  | cons a l ih =>
    exact .cons (opens_of_wf E a (h a (by simp))) (ih (fun o ho => h o (by simp [ho])))

omit [AddCommGroup S.G] [Module S.F S.G] [DecidableEq S.CG] [DecidableEq S.AT] [DecidableEq S.EK] in
theorem addBlindings_fold (l : List (OpenAssetRecord S)) (acc : S.F × S.F) :
    l.foldl (fun acc x => (acc.1 + x.amountBlinds.1, acc.2 + x.amountBlinds.2)) acc =
      (acc.1 + ((l.map openingOf).map (·.rlo)).sum, acc.2 + ((l.map openingOf).map (·.rhi)).sum) := by
  induction l generalizing acc with
  | nil => simp
  | cons a l ih =>
    rw [List.foldl_cons, ih]
    simp only [List.map_cons, List.sum_cons, openingOf]
    rw [Prod.mk.injEq]
    constructor <;> ring

omit [AddCommGroup S.G] [Module S.F S.G] [DecidableEq S.CG] [DecidableEq S.AT] [DecidableEq S.EK] in
theorem addBlindings_eq (l : List (OpenAssetRecord S)) :
    addBlindings l = (((l.map openingOf).map (·.rlo)).sum, ((l.map openingOf).map (·.rhi)).sum) := by
  unfold addBlindings
  rw [addBlindings_fold]; simp

omit [Field S.F] [AddCommGroup S.G] [Module S.F S.G] [DecidableEq S.CG] [DecidableEq S.AT]
  [DecidableEq S.EK] in
theorem zipWith_flatMap_pair {α β γ δ : Type} (l : List α) (f1 f2 : α → β) (g1 g2 : α → γ) (k : β → γ → δ) :
    List.zipWith k (l.flatMap (fun a => [f1 a, f2 a])) (l.flatMap (fun a => [g1 a, g2 a])) =
      l.flatMap (fun a => [k (f1 a) (g1 a), k (f2 a) (g2 a)]) := by
  induction l with
  | nil => rfl
  | cons a l ih => simp [List.flatMap_cons, ih]

omit [Field S.F] [AddCommGroup S.G] [Module S.F S.G] [DecidableEq S.CG] [DecidableEq S.AT]
  [DecidableEq S.EK] in
theorem length_flatMap_pair {α β : Type} (l : List α) (f1 f2 : α → β) :
    (l.flatMap (fun a => [f1 a, f2 a])).length = 2 * l.length := by
  induction l with
  | nil => rfl
  | cons a l ih => simp only [List.flatMap_cons, List.length_append, ih, List.length_cons, List.length_nil]; omega

omit [Field S.F] [AddCommGroup S.G] [Module S.F S.G] [DecidableEq S.CG] [DecidableEq S.AT]
  [DecidableEq S.EK] in
theorem toUInt64_limb (a : UInt64) :
    (splitU64 a).1.toUInt64.toNat = a.toNat % 2 ^ 32 ∧ (splitU64 a).2.toUInt64.toNat = a.toNat / 2 ^ 32 := by
  have := splitU64_toNat a
  simp [this.1, this.2]

omit [DecidableEq S.AT] [DecidableEq S.EK] in
/-- the verifier's recomputation agrees with the prover's range proof -/
theorem range_proof_accepted (hEnc : Encoding E) (hC : Complete E) (ins outs : List (OpenAssetRecord S))
    (hi : ∀ o ∈ ins, WellFormed E o) (ho : ∀ o ∈ outs, WellFormed E o) (p : RangeProof S)
    (h : E.genRangeProof ins outs = some p) :
    ∃ coms, E.extractValueCommitments (ins.map (·.bar)) (outs.map (·.bar)) p = some coms ∧
      E.batchRanges [(p.proof, coms)] = true := by
  unfold Ext.genRangeProof at h
  simp only [gt_iff_lt] at h
  split at h
  · simp at h
  obtain ⟨inT, hin, h⟩ := Option.bind_eq_some_iff.mp h
  obtain ⟨outT, hout, h⟩ := Option.bind_eq_some_iff.mp h
  have e1 : inT.toNat = total (ins.map openingOf) := by
    have := sumU64_eq _ _ _ hin
    simp only [List.map_map] at this
    simp only [total, List.map_map]
    rw [this]
    simp only [UInt64.toNat_zero, Nat.zero_add]
    congr 1
    refine List.map_congr_left fun o _ => ?_
    simp [openingOf_value]
  have e2 : outT.toNat = total (outs.map openingOf) := by
    have := sumU64_eq _ _ _ hout
    simp only [List.map_map] at this
    simp only [total, List.map_map]
    rw [this]
    simp only [UInt64.toNat_zero, Nat.zero_add]
    congr 1
    refine List.map_congr_left fun o _ => ?_
    simp [openingOf_value]
  split at h
  swap
  · simp at h
  rename_i hge
  simp only [Option.bind_eq_bind, Option.bind_some] at h
  generalize hdiff : inT - outT = diff at h
  have e3 : diff.toNat = total (ins.map openingOf) - total (outs.map openingOf) := by
    rw [← hdiff, UInt64.toNat_sub_of_le _ _ hge, e1, e2]
  have e4 : total (outs.map openingOf) ≤ total (ins.map openingOf) := by
    rw [← e1, ← e2]; exact hge
  obtain ⟨⟨rp, coms⟩, hrp, h⟩ := Option.bind_eq_some_iff.mp h
  simp only at h
  obtain ⟨dl, hdl, h⟩ := Option.bind_eq_some_iff.mp h
  obtain ⟨dh, hdh, h⟩ := Option.bind_eq_some_iff.mp h
  simp only [pure, Option.some.injEq] at h
  subst h
  rw [addBlindings_eq, addBlindings_eq] at hrp
  simp only at hrp
  generalize hupper : minPow2 (2 * (outs.length + 1)) = upper at hrp
  have hup : 2 * outs.length + 2 ≤ upper := by
    rw [← hupper]; exact (by omega : 2 * outs.length + 2 ≤ 2 * (outs.length + 1)).trans (le_minPow2 _)
  generalize hbl : ((ins.map openingOf).map (·.rlo)).sum - ((outs.map openingOf).map (·.rlo)).sum = bl at hrp
  generalize hbh : ((ins.map openingOf).map (·.rhi)).sum - ((outs.map openingOf).map (·.rhi)).sum = bh at hrp
  have hfl : (outs.map (·.amount)).flatMap (fun a => [((splitU64 a).1.toUInt64), (splitU64 a).2.toUInt64])
      = outs.flatMap (fun o => [((splitU64 o.amount).1.toUInt64), (splitU64 o.amount).2.toUInt64]) := by
    rw [List.flatMap_map]
  rw [hfl] at hrp
  generalize hV : outs.flatMap (fun o => [((splitU64 o.amount).1.toUInt64), (splitU64 o.amount).2.toUInt64]) = V at hrp
  generalize hR : outs.flatMap (fun o => [o.amountBlinds.1, o.amountBlinds.2]) = R at hrp
  have hVl : V.length = 2 * outs.length := by rw [← hV]; exact length_flatMap_pair _ _ _
  have hRl : R.length = 2 * outs.length := by rw [← hR]; exact length_flatMap_pair _ _ _
  have hlen1 : (V ++ [(splitU64 diff).1.toUInt64, (splitU64 diff).2.toUInt64]).length = 2 * outs.length + 2 := by
    simp [hVl]
  have hlen2 : (R ++ [bl, bh]).length = 2 * outs.length + 2 := by simp [hRl]
  rw [hlen1, hlen2] at hrp
  rw [List.take_of_length_le (by rw [List.length_append, hlen1, List.length_replicate]; omega)] at hrp
  obtain ⟨hcoms, hok⟩ := hC.ranges _ _ _ _ hrp (by
    simp [hVl, hRl])
  have hz : coms = outs.flatMap (fun o =>
        [E.compress (((o.amount.toNat % 2 ^ 32 : Nat) : S.F) • E.B + o.amountBlinds.1 • E.Bb),
         E.compress (((o.amount.toNat / 2 ^ 32 : Nat) : S.F) • E.B + o.amountBlinds.2 • E.Bb)]) ++
      [E.compress (((diff.toNat % 2 ^ 32 : Nat) : S.F) • E.B + bl • E.Bb),
       E.compress (((diff.toNat / 2 ^ 32 : Nat) : S.F) • E.B + bh • E.Bb)] ++
      List.replicate (upper - (2 * outs.length + 2)) E.identityC := by
    rw [hcoms, List.zipWith_append (by rw [hlen1, hlen2]), List.zipWith_append (by rw [hVl, hRl])]
    congr 1
    · congr 1
      · rw [← hV, ← hR, zipWith_flatMap_pair]
        refine List.flatMap_congr fun o _ => ?_
        rw [(toUInt64_limb o.amount).1, (toUInt64_limb o.amount).2]
      · simp only [List.zipWith_cons_cons, List.zipWith_nil_right]
        rw [(toUInt64_limb diff).1, (toUInt64_limb diff).2]
    · rw [List.zipWith_replicate', hEnc.identity]
      simp
  have hOl : (outs.flatMap (fun o =>
        [E.compress (((o.amount.toNat % 2 ^ 32 : Nat) : S.F) • E.B + o.amountBlinds.1 • E.Bb),
         E.compress (((o.amount.toNat / 2 ^ 32 : Nat) : S.F) • E.B + o.amountBlinds.2 • E.Bb)])).length
      = 2 * outs.length := length_flatMap_pair _ _ _
  have hdl' : dl = E.compress (((diff.toNat % 2 ^ 32 : Nat) : S.F) • E.B + bl • E.Bb) := by
    rw [hz, List.append_assoc, List.getElem?_append_right (by rw [hOl]), hOl] at hdl
    simp at hdl
    exact hdl.symm
  have hdh' : dh = E.compress (((diff.toNat / 2 ^ 32 : Nat) : S.F) • E.B + bh • E.Bb) := by
    rw [hz, List.append_assoc, List.getElem?_append_right (by rw [hOl]; omega), hOl] at hdh
    have : 2 * outs.length + 1 - 2 * outs.length = 1 := by omega
    rw [this] at hdh
    simp at hdh
    exact hdh.symm
  refine ⟨coms, ?_, hok ?_⟩
  · unfold Ext.extractValueCommitments
    rw [totalComs_of_opens E _ _ (opens_list E ins hi), totalComs_of_opens E _ _ (opens_list E outs ho)]
    have hoc : (outs.map (·.bar)).mapM (fun r => E.amountComs r.amount) =
        some (outs.map (fun o =>
          ((((o.amount.toNat % 2 ^ 32 : Nat) : S.F) • E.B + o.amountBlinds.1 • E.Bb),
           (((o.amount.toNat / 2 ^ 32 : Nat) : S.F) • E.B + o.amountBlinds.2 • E.Bb)))) := by
      rw [mapM_some_forall2]
      clear * - ho
      induction outs with
      | nil => exact .nil
      | cons a l ih =>
        refine .cons ?_ (ih (fun o ho' => ho o (by simp [ho'])))
        rw [amountComs_of_opens E _ _ (opens_of_wf E a (ho a (by simp)))]
        rfl
    rw [hoc]
    simp only [Option.bind_eq_bind, Option.bind_some, hdl', hdh', hEnc.dec_comp]
    rw [if_neg]
    · simp only [pure, Option.some.injEq, List.flatMap_map]
      rw [hz]
      have : 2 * (outs.map (·.bar)).length + 2 = 2 * (outs.length + 1) := by simp; omega
      rw [this, hupper]
      congr 2
      rw [List.length_append, hOl]
      rfl
    · simp only [ne_eq, not_not]
      congr 1
      have e32 : ((POW_2_32 : Nat) : S.F) = (2 : S.F) ^ 32 := by
        have : POW_2_32 = 2 ^ 32 := rfl
        rw [this]; norm_num
      have key : ((total (ins.map openingOf) : Nat) : S.F) =
          ((total (outs.map openingOf) : Nat) : S.F) +
            (((diff.toNat % 2 ^ 32 : Nat) : S.F) + 2 ^ 32 * ((diff.toNat / 2 ^ 32 : Nat) : S.F)) := by
        have : total (ins.map openingOf) = total (outs.map openingOf) +
            (diff.toNat % 2 ^ 32 + 2 ^ 32 * (diff.toNat / 2 ^ 32)) := by omega
        rw [this]; push_cast; ring
      rw [total_limbs, total_limbs] at key
      rw [e32, ← hbl, ← hbh]
      push_cast at key ⊢
      linear_combination (norm := module) key • E.B
  · intro v hv
    have hlow : ∀ a : UInt64, (splitU64 a).1.toUInt64.toNat < 2 ^ 32 ∧ (splitU64 a).2.toUInt64.toNat < 2 ^ 32 := by
      intro a
      rw [(toUInt64_limb a).1, (toUInt64_limb a).2]
      have := a.toNat_lt
      omega
    rcases List.mem_append.mp hv with hv | hv
    · rcases List.mem_append.mp hv with hv | hv
      · rw [← hV] at hv
        obtain ⟨o, _, ho'⟩ := List.mem_flatMap.mp hv
        simp only [List.mem_cons, List.not_mem_nil, or_false] at ho'
        rcases ho' with rfl | rfl
        · exact (hlow _).1
        · exact (hlow _).2
      · simp only [List.mem_cons, List.not_mem_nil, or_false] at hv
        rcases hv with rfl | rfl
        · exact (hlow _).1
        · exact (hlow _).2
    · rw [List.eq_of_mem_replicate hv]
      decide


/-! ### The three kinds of proofs, one transfer -/

omit [DecidableEq S.AT] [DecidableEq S.EK] in
theorem confidential_amount_accepted (hEnc : Encoding E) (hC : Complete E) (ins outs : List (OpenAssetRecord S))
    (hi : ∀ o ∈ ins, WellFormed E o) (ho : ∀ o ∈ outs, WellFormed E o) (p : RangeProof S)
    (h : E.genRangeProof ins outs = some p) :
    E.batchConfidentialAmount [(ins.map (·.bar), outs.map (·.bar), p)] = some () := by
  obtain ⟨coms, h1, h2⟩ := range_proof_accepted E hEnc hC ins outs hi ho p h
  simp [Ext.batchConfidentialAmount, h1, h2]

omit [DecidableEq S.CG] [DecidableEq S.AT] [DecidableEq S.EK] in
theorem typeCom_of_wf (o : OpenAssetRecord S) (h : WellFormed E o) :
    E.typeCom o.bar.assetType = some (E.asScalar o.assetType • E.B + o.typeBlind • E.Bb) ∧
    E.proverTypeCom o = some (E.asScalar o.assetType • E.B + o.typeBlind • E.Bb) := by
  have h1 := h.assetType
  unfold Ext.proverTypeCom
  cases ht : o.bar.assetType with
  | conf c => rw [ht] at h1; simp only at h1; exact ⟨h1, h1⟩
  | plain t =>
    rw [ht] at h1
    simp only at h1
    simp [Ext.typeCom, Ext.commit, h1.1, h1.2]

omit [Field S.F] [AddCommGroup S.G] [Module S.F S.G] [DecidableEq S.CG] [DecidableEq S.AT]
  [DecidableEq S.EK] in
theorem mapM_eq_map {α β : Type} (f : α → Option β) (g : α → β) (l : List α)
    (h : ∀ a ∈ l, f a = some (g a)) : l.mapM f = some (l.map g) := by
  rw [mapM_some_forall2]
  induction l with
  | nil => exact .nil
  | cons a l ih => exact .cons (h a (by simp)) (ih (fun x hx => h x (by simp [hx])))

omit [DecidableEq S.CG] [DecidableEq S.AT] [DecidableEq S.EK] in
theorem confidential_asset_accepted (hC : Complete E) (ins outs : List (OpenAssetRecord S))
    (hw : ∀ o ∈ ins ++ outs, WellFormed E o)
    (hs : ∀ o ∈ ins ++ outs, ∀ o' ∈ ins ++ outs, o.assetType = o'.assetType) (q : S.AP)
    (h : E.assetProof ins outs = some q) :
    E.batchConfidentialAsset [(ins.map (·.bar), outs.map (·.bar), q)] = some () := by
  unfold Ext.assetProof at h
  obtain ⟨coms, hcoms, h⟩ := Option.bind_eq_some_iff.mp h
  simp only at h
  obtain ⟨first, hfirst, h⟩ := Option.bind_eq_some_iff.mp h
  have hmem : first ∈ ins ++ outs := by
    rw [List.mem_append]; left
    exact List.mem_of_head? hfirst
  have hty : ∀ o ∈ ins ++ outs, o.assetType = first.assetType := fun o ho' => hs o ho' first hmem
  have e1 := mapM_eq_map E.proverTypeCom
    (fun o => E.asScalar first.assetType • E.B + o.typeBlind • E.Bb) (ins ++ outs)
    (fun o ho' => by rw [(typeCom_of_wf E o (hw o ho')).2, hty o ho'])
  rw [e1] at hcoms
  have e2 := mapM_eq_map (fun x : OpenAssetRecord S => E.typeCom x.bar.assetType)
    (fun o => E.asScalar first.assetType • E.B + o.typeBlind • E.Bb) (ins ++ outs)
    (fun o ho' => by rw [(typeCom_of_wf E o (hw o ho')).1, hty o ho'])
  have e3 : (ins.map (·.bar) ++ outs.map (·.bar)).mapM (fun r => E.typeCom r.assetType) =
      some ((ins ++ outs).map (fun o => E.asScalar first.assetType • E.B + o.typeBlind • E.Bb)) := by
    rw [← List.map_append, List.mapM_map]
    exact e2
  have hco : coms = ((ins ++ outs).map (·.typeBlind)).map (fun b => E.asScalar first.assetType • E.B + b • E.Bb) := by
    rw [List.map_map]; exact (Option.some.inj hcoms).symm
  rw [hco] at h
  have := hC.asset _ _ _ h
  rw [List.map_map] at this
  unfold Ext.batchConfidentialAsset
  simp only [List.mapM_cons, List.mapM_nil, e3, Option.bind_eq_bind, Option.bind_some, pure]
  simp only [Function.comp_def] at this
  rw [this]
  rfl

omit [DecidableEq S.CG] [DecidableEq S.AT] [DecidableEq S.EK] in
theorem processBars_of_wf (hEnc : Encoding E) (l : List (OpenAssetRecord S)) (h : ∀ o ∈ l, WellFormed E o) :
    E.processBars (l.map (·.bar)) = some ((l.map E.mixInput).map
      (fun e => (E.compress ((e.1.toNat : S.F) • E.B + e.2.2.1 • E.Bb),
        E.compress (e.2.1 • E.B + e.2.2.2 • E.Bb)))) := by
  unfold Ext.processBars
  rw [List.mapM_map, List.map_map]
  refine mapM_eq_map _ _ l fun o ho => ?_
  simp only [Function.comp]
  rw [amountComs_of_opens E _ _ (opens_of_wf E o (h o ho))]
  simp only [Option.bind_eq_bind, Option.bind_some, pure, Option.some.injEq, Prod.mk.injEq]
  constructor
  · congr 1
    have e32 : ((POW_2_32 : Nat) : S.F) = (2 : S.F) ^ 32 := by
      have : POW_2_32 = 2 ^ 32 := rfl
      rw [this]; norm_num
    have hv : ((o.amount.toNat : Nat) : S.F) = ((o.amount.toNat % 2 ^ 32 : Nat) : S.F) +
        2 ^ 32 * ((o.amount.toNat / 2 ^ 32 : Nat) : S.F) := by
      have : o.amount.toNat = o.amount.toNat % 2 ^ 32 + 2 ^ 32 * (o.amount.toNat / 2 ^ 32) := by omega
      conv_lhs => rw [this]
      push_cast; ring
    unfold Ext.mixInput openingOf
    simp only
    rw [e32, hv]
    module
  · have h1 := (h o ho).assetType
    cases ht : o.bar.assetType with
    | conf c =>
      rw [ht] at h1
      simp only at h1 ⊢
      exact (hEnc.comp_dec _ _ h1).symm
    | plain t =>
      rw [ht] at h1
      simp only at h1 ⊢
      simp [Ext.commit, Ext.mixInput, h1.1, h1.2]

omit [Field S.F] [AddCommGroup S.G] [Module S.F S.G] [DecidableEq S.CG] [DecidableEq S.EK] in
/-- balance per type implies balance per image of types -/
theorem balance_image {K : Type} [DecidableEq K] (f : S.AT → K) (a b : List (S.AT × Nat))
    (h : ∀ t, (a.map (fun e => if e.1 = t then e.2 else 0)).sum = (b.map (fun e => if e.1 = t then e.2 else 0)).sum)
    (k : K) : (a.map (fun e => if f e.1 = k then e.2 else 0)).sum =
      (b.map (fun e => if f e.1 = k then e.2 else 0)).sum := by
  have key : ∀ (T : Finset S.AT) (l : List (S.AT × Nat)), (∀ e ∈ l, e.1 ∈ T) →
      (l.map (fun e => if f e.1 = k then e.2 else 0)).sum =
        ∑ t ∈ T, if f t = k then (l.map (fun e => if e.1 = t then e.2 else 0)).sum else 0 := by
    intro T l hl
    induction l with
    | nil => simp
    | cons e l ih =>
      simp only [List.map_cons, List.sum_cons]
      rw [ih (fun x hx => hl x (by simp [hx]))]
      have : ∀ t, (if f t = k then (if e.1 = t then e.2 else 0) + (l.map (fun e => if e.1 = t then e.2 else 0)).sum else 0)
          = (if e.1 = t then (if f t = k then e.2 else 0) else 0) +
            (if f t = k then (l.map (fun e => if e.1 = t then e.2 else 0)).sum else 0) := by
        intro t
        by_cases h1 : f t = k <;> by_cases h2 : e.1 = t <;> simp [h1, h2]
      simp only [this]
      rw [Finset.sum_add_distrib, Finset.sum_ite_eq, if_pos (hl e (by simp))]
  rw [key (((a ++ b).map (·.1)).toFinset) a, key (((a ++ b).map (·.1)).toFinset) b]
  · refine Finset.sum_congr rfl fun t _ => ?_
    rw [h t]
  · intro e he
    simp only [List.mem_toFinset, List.mem_map, List.mem_append]
    exact ⟨e, .inr he, rfl⟩
  · intro e he
    simp only [List.mem_toFinset, List.mem_map, List.mem_append]
    exact ⟨e, .inl he, rfl⟩

open Classical in
omit [DecidableEq S.CG] [DecidableEq S.EK] in
theorem asset_mix_accepted (hEnc : Encoding E) (hC : Complete E) (ins outs : List (AssetRecord S))
    (hw : ∀ r ∈ ins ++ outs, WellFormed E r.oar) (hb : ∀ t, openTotal t ins = openTotal t outs) (q : S.MP)
    (h : E.proveMix ((ins.map (·.oar)).map E.mixInput) ((outs.map (·.oar)).map E.mixInput) = some q) :
    E.batchAssetMix [((ins.map (·.oar)).map (·.bar), (outs.map (·.oar)).map (·.bar), q)] = some () := by
  have h1 := processBars_of_wf E hEnc (ins.map (·.oar)) (fun o ho => by
    obtain ⟨r, hr, rfl⟩ := List.mem_map.mp ho
    exact hw r (by simp [hr]))
  have h2 := processBars_of_wf E hEnc (outs.map (·.oar)) (fun o ho => by
    obtain ⟨r, hr, rfl⟩ := List.mem_map.mp ho
    exact hw r (by simp [hr]))
  have h3 := hC.mix _ _ _ h (by
    intro s
    have := balance_image (S := S) E.asScalar (ins.map (fun r => (r.oar.assetType, r.oar.amount.toNat)))
      (outs.map (fun r => (r.oar.assetType, r.oar.amount.toNat))) (by
        intro t
        have := hb t
        simpa only [openTotal, List.map_map, Function.comp_def] using this) s
    simpa only [List.map_map, Function.comp_def, Ext.mixInput] using this)
  unfold Ext.batchAssetMix
  simp only [List.mapM_cons, List.mapM_nil, h1, h2, Option.bind_eq_bind, Option.bind_some, pure]
  rw [h3]
  rfl

end

end Verif.Xfr
