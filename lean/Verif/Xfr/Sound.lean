import Verif.Xfr.Honest

/-!
Property C16 at the level of an accepted transfer: the range proof system is given by an extractor.
-/

namespace Verif.Xfr

open Spec

namespace Spec

variable {S : Types} [Field S.F] [AddCommGroup S.G] [Module S.F S.G]

/-- An extractor for the range proof system: from an accepted proof over a list of commitments it computes an
opening of each, with a value below `2^32`.  (Knowledge soundness of Bulletproofs, idealised to a function.) -/
def RangeExtractor (E : Ext S) (x : S.RP → List S.CG → List (Nat × S.F)) : Prop :=
  ∀ rp coms, E.batchRanges [(rp, coms)] = true →
    List.Forall₂ (fun c (o : Nat × S.F) => o.1 < 2 ^ 32 ∧ E.decompress c = some ((o.1 : S.F) • E.B + o.2 • E.Bb))
      coms (x rp coms)

end Spec

section
variable {S : Types} [Field S.F] [AddCommGroup S.G] [Module S.F S.G] [DecidableEq S.CG]
  [DecidableEq S.AT] [DecidableEq S.EK] (E : Ext S)

/-- The openings of the outputs read off the extracted list: two entries per output; a public output opens to
its public amount. -/
def outputOpenings : List (BlindAssetRecord S) → List (Nat × S.F) → List (Opening S)
  | r :: rs, a :: b :: l =>
    (match r.amount with
      | .conf _ _ => { lo := a.1, hi := b.1, rlo := a.2, rhi := b.2 }
      | .plain v => { lo := v.toNat % 2 ^ 32, hi := v.toNat / 2 ^ 32, rlo := 0, rhi := 0 }) ::
      outputOpenings rs l
  | _, _ => []

/-- The opening of the difference: the two entries after those of the outputs. -/
def diffOpening : List (BlindAssetRecord S) → List (Nat × S.F) → Opening S
  | _ :: rs, _ :: _ :: l => diffOpening rs l
  | _, a :: b :: _ => { lo := a.1, hi := b.1, rlo := a.2, rhi := b.2 }
  | _, _ => { lo := 0, hi := 0, rlo := 0, rhi := 0 }

omit [DecidableEq S.CG] [DecidableEq S.AT] [DecidableEq S.EK] in
theorem openings_of_extracted (hEnc : ∀ g, E.decompress (E.compress g) = some g)
    (outs : List (BlindAssetRecord S)) (oc : List (S.G × S.G))
    (hoc : List.Forall₂ (fun r c => E.amountComs r.amount = some c) outs oc) (dl dh : S.CG) (rest : List S.CG)
    (xs : List (Nat × S.F))
    (hx : List.Forall₂ (fun c (o : Nat × S.F) => o.1 < 2 ^ 32 ∧
        E.decompress c = some ((o.1 : S.F) • E.B + o.2 • E.Bb))
      (oc.flatMap (fun c => [E.compress c.1, E.compress c.2]) ++ [dl, dh] ++ rest) xs) :
    List.Forall₂ (fun r o => Opens E r.amount o) outs (outputOpenings outs xs) ∧
      Opens E (.conf dl dh) (diffOpening outs xs) := by
  induction hoc generalizing xs with
  | nil =>
    simp only [List.flatMap_nil, List.nil_append, List.cons_append] at hx
    cases hx with
    | cons h1 hx => cases hx with
      | cons h2 hx =>
        exact ⟨by simp [outputOpenings], h1.1, h2.1, h1.2, h2.2⟩
  | @cons r c rs cs h1 _ ih =>
    simp only [List.flatMap_cons, List.cons_append, List.nil_append] at hx
    cases hx with
    | cons a1 hx => cases hx with
      | cons a2 hx =>
        obtain ⟨i1, i2⟩ := ih _ (by simpa using hx)
        refine ⟨?_, i2⟩
        unfold outputOpenings
        refine List.Forall₂.cons ?_ i1
        cases hr : r.amount with
        | plain v =>
          have := v.toNat_lt
          refine ⟨?_, ?_, ?_, rfl, rfl⟩
          · simp only; omega
          · simp only; omega
          · simp only [Opening.value]; omega
        | conf lo hi =>
          rw [hr] at h1
          simp only [Ext.amountComs] at h1
          obtain ⟨l, hl, h1⟩ := Option.bind_eq_some_iff.mp h1
          obtain ⟨h, hh, h1⟩ := Option.bind_eq_some_iff.mp h1
          simp only [pure, Option.some.injEq] at h1
          subst h1
          simp only [hEnc] at a1 a2
          exact ⟨a1.1, a2.1, hl.trans a1.2, hh.trans a2.2⟩

omit [DecidableEq S.AT] [DecidableEq S.EK] in
/-- C16 for the amount check of an accepted transfer.  The openings of the outputs and of the difference are the
extracted ones.  Whatever openings the inputs have, either the outputs' value is at most the inputs' value (and
the gap is the extracted difference), or these same openings give a non-trivial relation between the Pedersen
generators. -/
theorem C16_accepted_amounts (hF : CastInj S.F) (hEnc : ∀ g, E.decompress (E.compress g) = some g)
    (x : S.RP → List S.CG → List (Nat × S.F)) (hx : RangeExtractor E x)
    (ins outs : List (BlindAssetRecord S)) (p : RangeProof S)
    (h : E.batchConfidentialAmount [(ins, outs, p)] = some ())
    (oi : List (Opening S)) (hi : List.Forall₂ (fun r o => Opens E r.amount o) ins oi)
    (hli : ins.length ≤ 2 ^ 64) (hlo : outs.length ≤ 2 ^ 64) :
    ∃ coms, E.extractValueCommitments ins outs p = some coms ∧
      List.Forall₂ (fun r o => Opens E r.amount o) outs (outputOpenings outs (x p.proof coms)) ∧
      let oo := outputOpenings outs (x p.proof coms)
      let d := diffOpening outs (x p.proof coms)
      (total oi = total oo + d.value ∨
        ((total oi : S.F) - (total oo + d.value : Nat) ≠ 0 ∧
          ((total oi : S.F) - (total oo + d.value : Nat)) • E.B + (blind oi - blind oo - blind [d]) • E.Bb
            = 0)) := by
  unfold Ext.batchConfidentialAmount at h
  obtain ⟨cs, hcs, h⟩ := Option.bind_eq_some_iff.mp h
  rw [mapM_some_forall2] at hcs
  cases hcs with
  | @cons _ coms _ _ hc hnil =>
    cases hnil
    simp only [List.map_cons, List.map_nil, List.zip_cons_cons, List.zip_nil_right, ite_unit_iff] at h
    obtain ⟨oc, hoc, k, hk⟩ := C16_range_check_covers_outputs E ins outs p coms hc
    have hext := hx _ _ h
    obtain ⟨h1, h2⟩ := openings_of_extracted E hEnc outs oc hoc p.diffLow p.diffHigh _ (x p.proof coms)
      (by rw [hk] at hext; rwa [hk])
    refine ⟨coms, hc, h1, ?_⟩
    refine C16_no_inflation E hF ?_ ins outs p coms hc oi _ _ hi h1 h2 hli hlo
    intro a b hab
    have := congrArg E.decompress hab
    rw [hEnc, hEnc] at this
    exact Option.some.inj this

omit [DecidableEq S.EK] in
/-- C16 for a whole accepted body: an accepted transfer whose proof hides amounts creates no value. -/
theorem C16_accepted_body (hF : CastInj S.F) (hB : Batching E)
    (hEnc : ∀ g, E.decompress (E.compress g) = some g)
    (x : S.RP → List S.CG → List (Nat × S.F)) (hx : RangeExtractor E x) (b : XfrBody S) (p : RangeProof S)
    (h : E.batchAssetRecords [b] = some ())
    (hp : b.amountProof = .confAmount p ∨ ∃ q, b.amountProof = .confAll p q)
    (oi : List (Opening S)) (hi : List.Forall₂ (fun r o => Opens E r.amount o) b.inputs oi)
    (hli : b.inputs.length ≤ 2 ^ 64) (hlo : b.outputs.length ≤ 2 ^ 64) :
    ∃ coms, E.extractValueCommitments b.inputs b.outputs p = some coms ∧
      List.Forall₂ (fun r o => Opens E r.amount o) b.outputs (outputOpenings b.outputs (x p.proof coms)) ∧
      let oo := outputOpenings b.outputs (x p.proof coms)
      let d := diffOpening b.outputs (x p.proof coms)
      (total oi = total oo + d.value ∨
        ((total oi : S.F) - (total oo + d.value : Nat) ≠ 0 ∧
          ((total oi : S.F) - (total oo + d.value : Nat)) • E.B + (blind oi - blind oo - blind [d]) • E.Bb
            = 0)) := by
  rw [batchAssetRecords_iff E hB] at h
  have h := h b (by simp)
  unfold BodyOk at h
  refine C16_accepted_amounts E hF hEnc x hx b.inputs b.outputs p ?_ oi hi hli hlo
  rcases hp with hp | ⟨q, hp⟩
  · rw [hp] at h; exact h.2
  · rw [hp] at h; exact h.1

end

/-! ### Non-vacuity, and the violation of equality -/

/-- the toy range proof system has an extractor -/
theorem toyE_rangeExtractor :
    RangeExtractor toyE (fun _ coms => coms.map (fun c => (c.1.num.toNat, c.2))) := by
  intro rp coms h
  simp only [List.all_cons, List.all_nil, Bool.and_true, List.all_eq_true] at h
  rw [List.forall₂_map_right_iff, List.forall₂_same]
  intro c hc
  have := h c hc
  unfold toyInRange at this
  simp only [Bool.and_eq_true, beq_iff_eq, decide_eq_true_eq] at this
  obtain ⟨⟨h1, h2⟩, h3⟩ := this
  refine ⟨by omega, ?_⟩
  rw [toy_smul]
  have h4 : ((c.1.num.toNat : Nat) : ℚ) = c.1 := by
    have : ((c.1.num.toNat : Nat) : ℤ) = c.1.num := Int.toNat_of_nonneg h2
    rw [← Int.cast_natCast, this]
    exact Rat.coe_int_num_of_den_eq_one h1
  simp only [h4]

/-- a record with hidden amount and public type -/
def toyHidden (a : UInt64) (t pk : Nat) : OpenAssetRecord toyT :=
  { bar :=
      { amount := .conf ((splitU64 a).1.toNat, 3) ((splitU64 a).2.toNat, 4)
        assetType := .plain t, publicKey := pk }
    amount := a, amountBlinds := (3, 4), assetType := t, typeBlind := 0 }

theorem toyHidden_wf (a : UInt64) (t pk : Nat) : WellFormed toyE (toyHidden a t pk) where
  amount := by
    have := splitU64_toNat a
    simp only [toyHidden]
    rw [this.1, this.2]
    exact ⟨congrArg some (toy_smul _ _).symm, congrArg some (toy_smul _ _).symm⟩
  assetType := by simp [toyHidden]

/-- the body of a transfer of 5 hidden units into 3 hidden units, with the given amount proof -/
def toyBurn (p : RangeProof toyT) : XfrBody toyT :=
  { inputs := [(toyHidden 5 1 10).bar], outputs := [(toyHidden 3 1 20).bar], amountProof := .confAmount p
    tracingProofs := [], inputsIdentityProofs := [[]], outputsIdentityProofs := [[]]
    tracingMemos := [[], []], ownersMemos := [none] }

/-- C16, equality is violated: a note signed by the owner, carrying a transfer of five units into three of the same
asset, passes full verification; two units disappear. -/
theorem C16_equality_violated : ∃ p, toyE.genRangeProof [toyHidden 5 1 10] [toyHidden 3 1 20] = some p ∧
    toyE.verifyNote { body := toyBurn p, signatures := [(10, [1, 1])] }
      { valid := true, inputsPolicies := [[]], inputsSigComs := [none]
        outputsPolicies := [[]], outputsSigComs := [none] } = some () ∧
    total [openingOf (toyHidden 5 1 10)] = 5 ∧ total [openingOf (toyHidden 3 1 20)] = 3 := by
  have hg : (toyE.genRangeProof [toyHidden 5 1 10] [toyHidden 3 1 20]).isSome = true := by decide +kernel
  obtain ⟨p, hp⟩ := Option.isSome_iff_exists.mp hg
  refine ⟨p, hp, ?_, by decide +kernel, by decide +kernel⟩
  have hrec := C16_burn_accepted toyE toyE_encoding toyE_complete toyE_batching [toyHidden 5 1 10]
    [toyHidden 3 1 20] (by intro o ho; rw [List.mem_singleton.mp ho]; exact toyHidden_wf _ _ _)
    (by intro o ho; rw [List.mem_singleton.mp ho]; exact toyHidden_wf _ _ _) 1
    (by intro o ho; simp at ho; rcases ho with rfl | rfl <;> rfl) p hp (toyBurn p) rfl rfl rfl
  unfold Ext.verifyNote Ext.batchVerifyNotes
  rw [if_pos (by rfl)]
  unfold Ext.batchVerifyBodies
  simp only [List.map_cons, List.map_nil, hrec, Option.bind_eq_bind, Option.bind_some]
  rfl

/-- the burnt transfer meets the hypotheses of `C16_accepted_body`, which gives 5 = 3 + 2 -/
example : ∃ p, toyE.batchAssetRecords [toyBurn p] = some () ∧
    List.Forall₂ (fun r o => Opens toyE r.amount o) (toyBurn p).inputs [openingOf (toyHidden 5 1 10)] := by
  obtain ⟨p, hp, _⟩ := C16_equality_violated
  refine ⟨p, ?_, .cons (opens_of_wf toyE _ (toyHidden_wf _ _ _)) .nil⟩
  exact C16_burn_accepted toyE toyE_encoding toyE_complete toyE_batching [toyHidden 5 1 10]
    [toyHidden 3 1 20] (by intro o ho; rw [List.mem_singleton.mp ho]; exact toyHidden_wf _ _ _)
    (by intro o ho; rw [List.mem_singleton.mp ho]; exact toyHidden_wf _ _ _) 1
    (by intro o ho; simp at ho; rcases ho with rfl | rfl <;> rfl) p hp (toyBurn p) rfl rfl rfl

end Verif.Xfr
