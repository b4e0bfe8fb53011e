import Verif.Xfr.Batch
import Verif.Xfr.MultiSig

/-!
Property C17: honestly generated transfers are accepted; and the limits of C16: a confidential proof accepts
burning.
-/

namespace Verif.Xfr

open Spec

namespace Spec

variable {S : Types} [Field S.F] [AddCommGroup S.G] [Module S.F S.G]

/-- The tracer memo `m` holds, under key `k`, encryptions of the hidden fields of the record, with the record's
blindings as randomness, and nothing else (what `TracerMemo::new` builds). -/
def MemoMatches (enc : S.EK → S.F → S.F → S.Ct) (E : Ext S) (o : OpenAssetRecord S) (k : S.EK)
    (m : TracerMemo S) : Prop :=
  (match o.bar.amount with
    | .conf _ _ => m.lockAmount =
        some (enc k ((o.amount.toNat % 2 ^ 32 : Nat) : S.F) o.amountBlinds.1,
          enc k ((o.amount.toNat / 2 ^ 32 : Nat) : S.F) o.amountBlinds.2)
    | .plain _ => m.lockAmount = none) ∧
  (match o.bar.assetType with
    | .conf _ => m.lockAssetType = some (enc k (E.asScalar o.assetType) o.typeBlind)
    | .plain _ => m.lockAssetType = none)

/-- completeness of the Pedersen-ElGamal equality proof -/
def PegComplete (enc : S.EK → S.F → S.F → S.Ct) (E : Ext S) : Prop :=
  ∀ (k : S.EK) (l : List (S.F × S.F)),
    E.batchPeg [(k, l.map (fun e => enc k e.1 e.2), l.map (fun e => e.1 • E.B + e.2 • E.Bb),
      E.provePeg (l.map (·.1)) (l.map (·.2)) k (l.map (fun e => enc k e.1 e.2))
        (l.map (fun e => e.1 • E.B + e.2 • E.Bb)))] = true

/-- identity data of a record is acceptable under its policies: one memo and one (possibly absent) identity
proof for each policy, each accepted -/
def IdentityOk (E : Ext S) (r : AssetRecord S) (sc : Option S.SC) : Prop :=
  r.tracersMemos.length = r.tracingPolicies.length ∧ r.identityProofs.length = r.tracingPolicies.length ∧
  ∀ e ∈ r.tracingPolicies.zip (r.tracersMemos.zip r.identityProofs),
    match e.1.identityTracing, e.2.2 with
    | some ip, some pf => ∃ s, sc = some s ∧ E.acVerify ip s e.2.1.lockAttributes pf = true
    | none, none => True
    | _, _ => False

end Spec

section
variable {S : Types} [Field S.F] [AddCommGroup S.G] [Module S.F S.G] [DecidableEq S.CG]
  [DecidableEq S.AT] [DecidableEq S.EK] (E : Ext S)

/-! ### Tracing proofs -/

/-- the openings proven for one record: limbs and type with their blindings, hidden fields only -/
def recordOpenings (o : OpenAssetRecord S) : List (S.F × S.F) :=
  (match o.bar.amount with
    | .conf _ _ => [(((o.amount.toNat % 2 ^ 32 : Nat) : S.F), o.amountBlinds.1),
        (((o.amount.toNat / 2 ^ 32 : Nat) : S.F), o.amountBlinds.2)]
    | .plain _ => []) ++
  (match o.bar.assetType with
    | .conf _ => [(E.asScalar o.assetType, o.typeBlind)]
    | .plain _ => [])

omit [DecidableEq S.CG] [DecidableEq S.AT] [DecidableEq S.EK] in
theorem ctextsOf_eq (enc : S.EK → S.F → S.F → S.Ct) (k : S.EK) (r : AssetRecord S) (m : TracerMemo S)
    (hw : WellFormed E r.oar) (hm : MemoMatches enc E r.oar k m) :
    E.ctextsOf (r.oar.bar, m) = some ((recordOpenings E r.oar).map (fun e => enc k e.1 e.2),
      (recordOpenings E r.oar).map (fun e => e.1 • E.B + e.2 • E.Bb)) := by
  obtain ⟨m1, m2⟩ := hm
  have w1 := hw.amount
  have w2 := hw.assetType
  unfold Ext.ctextsOf recordOpenings
  cases ha : r.oar.bar.amount <;> cases ht : r.oar.bar.assetType <;>
    simp only [ha, ht] at m1 m2 w1 w2 <;>
    simp_all [XfrAmount.isConfidential, XfrAmount.getCommitments, XfrAssetType.isConfidential,
      XfrAssetType.getCommitment]

omit [DecidableEq S.CG] [DecidableEq S.AT] [DecidableEq S.EK] in
theorem flatMap_map' {α β γ : Type} (l : List α) (f : α → List β) (g : β → γ) :
    l.flatMap (fun a => (f a).map g) = (l.flatMap f).map g := by
  rw [List.map_flatMap]

omit [DecidableEq S.CG] [DecidableEq S.AT] [DecidableEq S.EK] in
theorem extractCtexts_eq (enc : S.EK → S.F → S.F → S.Ct) (k : S.EK) (l : List (AssetRecord S × TracerMemo S))
    (h : ∀ x ∈ l, WellFormed E x.1.oar ∧ MemoMatches enc E x.1.oar k x.2) :
    E.extractCtexts (l.map (fun x => (x.1.oar.bar, x.2))) =
      some ((l.flatMap (fun x => recordOpenings E x.1.oar)).map (fun e => enc k e.1 e.2),
        (l.flatMap (fun x => recordOpenings E x.1.oar)).map (fun e => e.1 • E.B + e.2 • E.Bb)) := by
  unfold Ext.extractCtexts
  rw [List.mapM_map]
  have := mapM_eq_map (fun x : AssetRecord S × TracerMemo S => E.ctextsOf (x.1.oar.bar, x.2))
    (fun x => ((recordOpenings E x.1.oar).map (fun e => enc k e.1 e.2),
      (recordOpenings E x.1.oar).map (fun e => e.1 • E.B + e.2 • E.Bb))) l
    (fun x hx => ctextsOf_eq E enc k x.1 x.2 (h x hx).1 (h x hx).2)
  have e : (E.ctextsOf ∘ fun x : AssetRecord S × TracerMemo S => (x.1.oar.bar, x.2)) =
      (fun x : AssetRecord S × TracerMemo S => E.ctextsOf (x.1.oar.bar, x.2)) := rfl
  rw [e, this]
  simp only [Option.bind_eq_bind, Option.bind_some, pure, List.flatMap_map, List.map_flatMap]

omit [DecidableEq S.CG] [DecidableEq S.AT] [DecidableEq S.EK] in
theorem buildTracingProof_eq (enc : S.EK → S.F → S.F → S.Ct) (k : S.EK) (l : List (AssetRecord S × TracerMemo S))
    (h : ∀ x ∈ l, WellFormed E x.1.oar ∧ MemoMatches enc E x.1.oar k x.2) :
    E.buildTracingProof k l =
      some (E.provePeg ((l.flatMap (fun x => recordOpenings E x.1.oar)).map (·.1))
        ((l.flatMap (fun x => recordOpenings E x.1.oar)).map (·.2)) k
        ((l.flatMap (fun x => recordOpenings E x.1.oar)).map (fun e => enc k e.1 e.2))
        ((l.flatMap (fun x => recordOpenings E x.1.oar)).map (fun e => e.1 • E.B + e.2 • E.Bb))) := by
  unfold Ext.buildTracingProof
  have key := mapM_eq_map E.tracingParts
    (fun x => ((recordOpenings E x.1.oar).map (·.1), (recordOpenings E x.1.oar).map (·.2),
      (recordOpenings E x.1.oar).map (fun e => enc k e.1 e.2),
      (recordOpenings E x.1.oar).map (fun e => e.1 • E.B + e.2 • E.Bb))) l
    (by
      intro x hx
      obtain ⟨hw, m1, m2⟩ := h x hx
      have w1 := hw.amount
      have w2 := hw.assetType
      have s := splitU64_toNat x.1.oar.amount
      unfold recordOpenings Ext.tracingParts
      cases ha : x.1.oar.bar.amount <;> cases ht : x.1.oar.bar.assetType <;>
        simp only [ha, ht] at m1 m2 w1 w2 <;>
        simp_all [limbs])
  rw [key]
  simp only [Option.bind_eq_bind, Option.bind_some, pure, List.flatMap_map, List.map_flatMap]

omit [DecidableEq S.CG] [DecidableEq S.AT] in
/-- the generated tracing proofs are accepted -/
theorem tracing_accepted (enc : S.EK → S.F → S.F → S.Ct) (hB : Batching E) (hP : PegComplete enc E)
    (ins outs : List (AssetRecord S)) (hw : ∀ r ∈ ins ++ outs, WellFormed E r.oar)
    (hm : ∀ r ∈ ins ++ outs, ∀ pm ∈ r.tracingPolicies.zip r.tracersMemos, pm.1.assetTracing = true →
      MemoMatches enc E r.oar pm.1.encKey pm.2)
    (b : XfrBody S) (h1 : b.inputs = ins.map (·.oar.bar)) (h2 : b.outputs = outs.map (·.oar.bar))
    (h3 : b.tracingMemos = (ins ++ outs).map (·.tracersMemos))
    (h4 : E.assetAmountTracingProofs ins outs = some b.tracingProofs) :
    E.batchTracing [(b, ins.map (·.tracingPolicies), outs.map (·.tracingPolicies))] = some () := by
  have hgr := C25_verifier_recomputes_groups ins outs b h1 h2 h3
  have hG := C25_prover_groups (S := S) (ins ++ outs)
  unfold Ext.assetAmountTracingProofs at h4
  rw [mapM_some_forall2] at h4
  generalize collectRecordsAndMemos (ins ++ outs) = groups at *
  -- every grouped item is well formed and matches its key
  have hall : ∀ g ∈ groups, ∀ x ∈ g.2, WellFormed E x.1.oar ∧ MemoMatches enc E x.1.oar g.1 x.2 := by
    intro g hg x hx
    rw [hG.2.2 g hg] at hx
    obtain ⟨e, he, rfl⟩ := List.mem_map.mp hx
    obtain ⟨he1, he2⟩ := List.mem_filter.mp he
    obtain ⟨r, hr, he1⟩ := List.mem_flatMap.mp he1
    unfold recordItems at he1
    split at he1
    · obtain ⟨pm, hpm, rfl⟩ := List.mem_map.mp he1
      obtain ⟨hpm1, hpm2⟩ := List.mem_filter.mp hpm
      simp only [decide_eq_true_eq] at he2
      simp only
      rw [← he2]
      exact ⟨hw r hr, hm r hr pm hpm1 hpm2⟩
    · simp at he1
  rw [batchTracing_iff E hB]
  intro e he
  rw [List.mem_singleton.mp he]
  refine ⟨groups.map (fun e => (e.1, e.2.map (fun x => (x.1.oar.bar, x.2)))), ?_, ?_⟩
  · unfold tracingInstances
    rw [hgr]
    simp [h4.length_eq]
  · simp only
    clear hgr hG
    generalize b.tracingProofs = proofs at h4
    clear h1 h2 h3 he
    induction h4 with
    | nil => simp
    | @cons g p gs ps hg _ ih =>
      have hgw := hall g (by simp)
      intro x hx
      simp only [List.map_cons, List.zip_cons_cons, List.mem_cons] at hx
      rcases hx with rfl | hx
      · refine ⟨_, extractCtexts_eq E enc g.1 g.2 hgw, ?_⟩
        rw [buildTracingProof_eq E enc g.1 g.2 hgw] at hg
        simp only [Option.some.injEq] at hg
        subst hg
        exact hP g.1 _
      · exact ih (fun g' hg' => hall g' (by simp [hg'])) x hx

omit [Field S.F] [AddCommGroup S.G] [Module S.F S.G] [DecidableEq S.CG] [DecidableEq S.AT]
  [DecidableEq S.EK] in
theorem identity_accepted (l : List (AssetRecord S)) (scs : List (Option S.SC)) (hl : l.length = scs.length)
    (h : ∀ e ∈ l.zip scs, IdentityOk E e.1 e.2) :
    E.verifyIdentityProofs (l.map (·.tracingPolicies)) (l.map (·.tracersMemos)) (l.map (·.identityProofs)) scs
      = true := by
  unfold Ext.verifyIdentityProofs
  simp only [List.length_map]
  rw [if_neg (by omega), if_neg, if_neg (by omega)]
  · rw [List.all_eq_true]
    intro e he
    obtain ⟨i, hi, rfl⟩ := List.mem_iff_getElem.mp he
    simp only [List.length_zip, List.length_map] at hi
    have hil : i < l.length := by omega
    have his : i < scs.length := by omega
    obtain ⟨a1, a2, a3⟩ := h (l[i], scs[i]) (by
      rw [List.mem_iff_getElem]; exact ⟨i, by simp; omega, by simp⟩)
    simp only [List.getElem_zip, List.getElem_map]
    simp only at a1 a2 a3
    rw [a1, a2]
    simp only [beq_self_eq_true, Bool.and_self, Bool.true_and, List.all_eq_true]
    intro x hx
    have := a3 x hx
    unfold Ext.identityOk
    split <;> simp_all
    obtain ⟨s, hs, hv⟩ := this
    rw [hs]
    exact hv
  · rintro ⟨h0, h1⟩
    apply h1
    have : l = [] := List.length_eq_zero_iff.mp h0
    subst this
    simp

/-! ### C17 -/

omit [DecidableEq S.EK] in
/-- C17, amounts and types: whatever its class, the proof attached to a generated body is accepted for it. -/
theorem C17_amount_proof_accepted [DecidableEq S.EK] (hEnc : Encoding E) (hC : Complete E) (hB : Batching E)
    (ins outs : List (AssetRecord S)) (hw : ∀ r ∈ ins ++ outs, WellFormed E r.oar) (b : XfrBody S)
    (h : E.genBody ins outs = some b) : E.batchAssetRecords [b] = some () := by
  have hne : ins ≠ [] := by
    rintro rfl
    simp [Ext.genBody, xfrTypeOf] at h
  obtain ⟨t, ht, c1, c2, c3, c4, c5, c6⟩ := C14_classification ins outs hne
  unfold Ext.genBody at h
  simp only [ht, Option.bind_eq_bind, Option.bind_some] at h
  split at h
  · simp at h
  rename_i hbal
  have hbal := (checkAssetAmount_iff ins outs).mp (by simpa using hbal)
  obtain ⟨pf, hpf, h⟩ := Option.bind_eq_some_iff.mp h
  obtain ⟨tr, _, h⟩ := Option.bind_eq_some_iff.mp h
  simp only [pure, Option.some.injEq] at h
  rw [batchAssetRecords_iff E hB]
  intro b' hb'
  rw [List.mem_singleton.mp hb']
  have hin : b.inputs = (ins.map (·.oar)).map (·.bar) := by rw [← h]
  have hout : b.outputs = (outs.map (·.oar)).map (·.bar) := by rw [← h]
  have hp : b.amountProof = pf := by rw [← h]
  clear h
  have hwi : ∀ o ∈ ins.map (·.oar), WellFormed E o := fun o ho => by
    obtain ⟨r, hr, rfl⟩ := List.mem_map.mp ho
    exact hw r (by simp [hr])
  have hwo : ∀ o ∈ outs.map (·.oar), WellFormed E o := fun o ho => by
    obtain ⟨r, hr, rfl⟩ := List.mem_map.mp ho
    exact hw r (by simp [hr])
  have hwio : ∀ o ∈ ins.map (·.oar) ++ outs.map (·.oar), WellFormed E o := fun o ho => by
    rcases List.mem_append.mp ho with ho | ho
    · exact hwi o ho
    · exact hwo o ho
  -- membership in the body's records
  have hmem : ∀ r ∈ b.inputs ++ b.outputs, ∃ x ∈ ins ++ outs, x.oar.bar = r := by
    intro r hr
    rw [hin, hout, ← List.map_append, ← List.map_append] at hr
    obtain ⟨o, ho, rfl⟩ := List.mem_map.mp hr
    obtain ⟨x, hx, rfl⟩ := List.mem_map.mp ho
    exact ⟨x, hx, rfl⟩
  have hplainT : ¬SomeTypeHidden (ins ++ outs) → ∀ x ∈ ins ++ outs, x.oar.bar.assetType = .plain x.oar.assetType := by
    intro hn x hx
    have w := (hw x hx).assetType
    cases hc : x.oar.bar.assetType with
    | conf c => exact absurd ⟨x, hx, c, hc⟩ hn
    | plain t => rw [hc] at w; rw [w.1]
  have hplainA : ¬SomeAmountHidden (ins ++ outs) → ∀ x ∈ ins ++ outs, x.oar.bar.amount = .plain x.oar.amount := by
    intro hn x hx
    have w := (hw x hx).amount
    cases hc : x.oar.bar.amount with
    | conf lo hi => exact absurd ⟨x, hx, lo, hi, hc⟩ hn
    | plain t => rw [hc] at w; rw [w.1]
  have hsingle : ¬MultiAsset (ins ++ outs) → ∀ x ∈ ins ++ outs, ∀ y ∈ ins ++ outs,
      x.oar.assetType = y.oar.assetType := by
    intro hn x hx y hy
    by_contra hne
    exact hn ⟨x, hx, y, hy, hne⟩
  have hsingle' : ¬MultiAsset (ins ++ outs) → ∀ o ∈ ins.map (·.oar) ++ outs.map (·.oar),
      ∀ o' ∈ ins.map (·.oar) ++ outs.map (·.oar), o.assetType = o'.assetType := by
    intro hn o ho o' ho'
    rw [← List.map_append] at ho ho'
    obtain ⟨x, hx, rfl⟩ := List.mem_map.mp ho
    obtain ⟨y, hy, rfl⟩ := List.mem_map.mp ho'
    exact hsingle hn x hx y hy
  have hmix : ¬SomeAmountHidden (ins ++ outs) → ¬SomeTypeHidden (ins ++ outs) →
      verifyPlainAssetMix b.inputs b.outputs = some () := by
    intro hA hT
    rw [verifyPlainAssetMix_iff]
    refine ⟨?_, fun t => ?_⟩
    · intro r hr
      obtain ⟨x, hx, rfl⟩ := hmem r hr
      exact ⟨_, _, hplainA hA x hx, hplainT hT x hx⟩
    · have : ∀ l : List (AssetRecord S), (∀ x ∈ l, x ∈ ins ++ outs) →
          publicTotal t ((l.map (·.oar)).map (·.bar)) = openTotal t l := by
        intro l hl
        unfold publicTotal openTotal
        rw [List.map_map, List.map_map]
        congr 1
        refine List.map_congr_left fun x hx => ?_
        simp only [Function.comp, units, hplainA hA x (hl x hx), hplainT hT x (hl x hx)]
      rw [hin, hout, this ins (fun x hx => by simp [hx]), this outs (fun x hx => by simp [hx])]
      exact hbal t
  unfold BodyOk
  rw [hp]
  cases t
  · simp only [reduceCtorEq, false_iff, true_iff] at c1 c2 c3 c4 c5 c6
    simp only [Ext.genAmountProof, Ext.genSingle, Option.some.injEq] at hpf
    subst hpf
    exact hmix c3.2.1 c3.2.2
  · simp only [reduceCtorEq, false_iff, true_iff] at c1 c2 c3 c4 c5 c6
    simp only [Ext.genAmountProof, Ext.genSingle] at hpf
    obtain ⟨p, hgp, hpf⟩ := Option.bind_eq_some_iff.mp hpf
    simp only [pure, Option.some.injEq] at hpf
    subst hpf
    refine ⟨?_, ?_⟩
    · rw [verifyPlainAsset_iff]
      refine ⟨?_, ?_⟩
      · intro r hr
        obtain ⟨x, hx, rfl⟩ := hmem r hr
        exact ⟨_, hplainT c4.2.2 x hx⟩
      · intro r hr r' hr'
        obtain ⟨x, hx, rfl⟩ := hmem r hr
        obtain ⟨y, hy, rfl⟩ := hmem r' hr'
        rw [hplainT c4.2.2 x hx, hplainT c4.2.2 y hy, hsingle c4.1 x hx y hy]
    · rw [hin, hout]
      exact confidential_amount_accepted E hEnc hC _ _ hwi hwo p hgp
  · simp only [reduceCtorEq, false_iff, true_iff] at c1 c2 c3 c4 c5 c6
    simp only [Ext.genAmountProof, Ext.genSingle] at hpf
    obtain ⟨p, hgp, hpf⟩ := Option.bind_eq_some_iff.mp hpf
    simp only [pure, Option.some.injEq] at hpf
    subst hpf
    refine ⟨?_, ?_⟩
    · rw [verifyPlainAmounts_iff]
      refine ⟨?_, ?_⟩
      · intro r hr
        obtain ⟨x, hx, rfl⟩ := hmem r hr
        exact ⟨_, hplainA c5.2.1 x hx⟩
      · cases ins with
        | nil => exact absurd rfl hne
        | cons r0 ins' =>
          have hb0 := hbal r0.oar.assetType
          have : ∀ l : List (AssetRecord S), (∀ x ∈ l, x ∈ r0 :: ins' ++ outs) →
              (((l.map (·.oar)).map (·.bar)).map publicAmount).sum = openTotal r0.oar.assetType l := by
            intro l hl
            unfold openTotal
            rw [List.map_map, List.map_map]
            congr 1
            refine List.map_congr_left fun x hx => ?_
            rw [if_pos (hsingle c5.1 x (hl x hx) r0 (by simp))]
            simp only [Function.comp, publicAmount, hplainA c5.2.1 x (hl x hx)]
          rw [hin, hout, this _ (fun x hx => List.mem_append_left _ hx),
            this _ (fun x hx => List.mem_append_right _ hx)]
          exact hb0
    · rw [hin, hout]
      exact confidential_asset_accepted E hC _ _ hwio (hsingle' c5.1) p hgp
  · simp only [reduceCtorEq, false_iff, true_iff] at c1 c2 c3 c4 c5 c6
    simp only [Ext.genAmountProof, Ext.genSingle] at hpf
    obtain ⟨p, hgp, hpf⟩ := Option.bind_eq_some_iff.mp hpf
    obtain ⟨q, hgq, hpf⟩ := Option.bind_eq_some_iff.mp hpf
    simp only [pure, Option.some.injEq] at hpf
    subst hpf
    refine ⟨?_, ?_⟩
    · rw [hin, hout]
      exact confidential_amount_accepted E hEnc hC _ _ hwi hwo p hgp
    · rw [hin, hout]
      exact confidential_asset_accepted E hC _ _ hwio (hsingle' c6.1) q hgq
  · simp only [reduceCtorEq, false_iff, true_iff] at c1 c2 c3 c4 c5 c6
    simp only [Ext.genAmountProof, Ext.genMulti] at hpf
    obtain ⟨p, hgp, hpf⟩ := Option.bind_eq_some_iff.mp hpf
    simp only [pure, Option.some.injEq] at hpf
    subst hpf
    simp only
    rw [hin, hout]
    exact asset_mix_accepted E hEnc hC ins outs hw hbal p hgp
  · simp only [reduceCtorEq, false_iff, true_iff] at c1 c2 c3 c4 c5 c6
    simp only [Ext.genAmountProof, Ext.genMulti, Option.some.injEq] at hpf
    subst hpf
    exact hmix c1.2.1 c1.2.2

/-- C17: a note generated from well-formed records, with tracing memos and identity data that match the records'
policies, is accepted by the verifier that knows these policies. -/
theorem C17_honest_note_verifies [DecidableEq S.PK] (enc : S.EK → S.F → S.F → S.Ct) (hEnc : Encoding E)
    (hC : Complete E) (hB : Batching E) (hP : PegComplete enc E)
    (hinj : ∀ a b, E.pkBytes a = E.pkBytes b → a = b)
    (hsig : ∀ k m s, E.kpSign k m = some s → E.sigVerify (E.kpPub k) m s = true)
    (ins outs : List (AssetRecord S)) (keys : List S.KP) (pol : Policies S)
    (hw : ∀ r ∈ ins ++ outs, WellFormed E r.oar)
    (hm : ∀ r ∈ ins ++ outs, ∀ pm ∈ r.tracingPolicies.zip r.tracersMemos, pm.1.assetTracing = true →
      MemoMatches enc E r.oar pm.1.encKey pm.2)
    (hvalid : pol.valid = true)
    (hpi : pol.inputsPolicies = ins.map (·.tracingPolicies))
    (hpo : pol.outputsPolicies = outs.map (·.tracingPolicies))
    (hsi : ins.length = pol.inputsSigComs.length) (hso : outs.length = pol.outputsSigComs.length)
    (hii : ∀ e ∈ ins.zip pol.inputsSigComs, IdentityOk E e.1 e.2)
    (hio : ∀ e ∈ outs.zip pol.outputsSigComs, IdentityOk E e.1 e.2)
    (note : XfrNote S) (h : E.genNote ins outs keys = some note) : E.verifyNote note pol = some () := by
  obtain ⟨_, hkeys, _, hin, hout, _⟩ := C13_generated_note E ins outs keys note h
  unfold Ext.genNote at h
  split at h
  · simp at h
  split at h
  · simp at h
  obtain ⟨body, hbody, h⟩ := Option.bind_eq_some_iff.mp h
  obtain ⟨bytes, hbytes, h⟩ := Option.bind_eq_some_iff.mp h
  obtain ⟨sigs, hsigs, h⟩ := Option.bind_eq_some_iff.mp h
  simp only [pure, Option.some.injEq] at h
  subst h
  simp only at hin hout
  have hrec := C17_amount_proof_accepted E hEnc hC hB ins outs hw body hbody
  have hms : E.verifyTransferMultisig { body := body, signatures := sigs } = true := by
    unfold Ext.verifyTransferMultisig
    simp only [hbytes]
    refine C19_signed_verifies E hinj hsig keys bytes sigs hsigs _ ?_
    rw [hin, ← hkeys, List.map_map]
    exact List.Perm.refl _
  -- fields of the body
  have hfields : body.tracingMemos = (ins ++ outs).map (·.tracersMemos) ∧
      body.inputsIdentityProofs = ins.map (·.identityProofs) ∧
      body.outputsIdentityProofs = outs.map (·.identityProofs) ∧
      E.assetAmountTracingProofs ins outs = some body.tracingProofs := by
    unfold Ext.genBody at hbody
    obtain ⟨t, _, hbody⟩ := Option.bind_eq_some_iff.mp hbody
    split at hbody
    · simp at hbody
    obtain ⟨pf, _, hbody⟩ := Option.bind_eq_some_iff.mp hbody
    obtain ⟨tr, htr, hbody⟩ := Option.bind_eq_some_iff.mp hbody
    simp only [pure, Option.some.injEq] at hbody
    subst hbody
    exact ⟨rfl, rfl, rfl, htr⟩
  obtain ⟨f1, f2, f3, f4⟩ := hfields
  unfold Ext.verifyNote Ext.batchVerifyNotes
  rw [if_pos (by simp [hms])]
  unfold Ext.batchVerifyBodies
  simp only [List.map_cons, List.map_nil, hrec, Option.bind_eq_bind, Option.bind_some]
  rw [batchTracerTracing_iff E hB]
  refine ⟨rfl, ?_⟩
  intro e he
  simp only [List.zip_cons_cons, List.zip_nil_right, List.mem_singleton] at he
  subst he
  simp only
  refine ⟨hvalid, ?_, ?_⟩
  · rw [hpi, hpo]
    exact tracing_accepted E enc hB hP ins outs hw hm body hin hout f1 f4
  · unfold Ext.identityBody
    simp only [f1, f2, f3, hin, hpi, hpo, List.length_map, List.map_append]
    have hl : ins.length = (ins.map (·.tracersMemos)).length := by simp
    rw [hl, List.take_left, List.drop_left, identity_accepted E ins _ hsi hii, identity_accepted E outs _ hso hio]
    simp

/-! ### C16: burning -/

/-- C16, what the proof does *not* say: a range proof made for records whose inputs are worth more than the
outputs is accepted, so the verifier of an amount-confidential transfer does not enforce equality.  (The honest
generator refuses such a transfer, C13; a sender who assembles the body themselves is not stopped.) -/
theorem C16_burn_accepted (hEnc : Encoding E) (hC : Complete E) (hB : Batching E)
    (ins outs : List (OpenAssetRecord S)) (hi : ∀ o ∈ ins, WellFormed E o) (ho : ∀ o ∈ outs, WellFormed E o)
    (t : S.AT) (ht : ∀ o ∈ ins ++ outs, o.bar.assetType = .plain t) (p : RangeProof S)
    (hp : E.genRangeProof ins outs = some p) (b : XfrBody S) (hbi : b.inputs = ins.map (·.bar))
    (hbo : b.outputs = outs.map (·.bar)) (hbp : b.amountProof = .confAmount p) :
    E.batchAssetRecords [b] = some () := by
  rw [batchAssetRecords_iff E hB]
  intro b' hb'
  rw [List.mem_singleton.mp hb']
  unfold BodyOk
  rw [hbp]
  have hmem : ∀ r ∈ b.inputs ++ b.outputs, r.assetType = .plain t := by
    intro r hr
    rw [hbi, hbo, ← List.map_append] at hr
    obtain ⟨o, ho, rfl⟩ := List.mem_map.mp hr
    exact ht o ho
  refine ⟨?_, ?_⟩
  · rw [verifyPlainAsset_iff]
    exact ⟨fun r hr => ⟨t, hmem r hr⟩, fun r hr r' hr' => by rw [hmem r hr, hmem r' hr']⟩
  · rw [hbi, hbo]
    exact confidential_amount_accepted E hEnc hC ins outs hi ho p hp

end

/-! ### The toy instance satisfies the hypotheses -/

theorem toyE_encoding : Encoding toyE where
  dec_comp := fun _ => rfl
  comp_dec := fun c g h => by simpa using h.symm
  identity := rfl

theorem toyInRange_natCast (n : Nat) (h : n < 2 ^ 32) : toyInRange (n : ℚ) = true := by
  unfold toyInRange
  simp
  omega

theorem toy_smul (v b : ℚ) : v • toyE.B + b • toyE.Bb = (v, b) := by
  simp [Prod.ext_iff]

theorem toyE_complete : Complete toyE where
  ranges := by
    intro vals blinds rp coms h hl
    simp only [Option.some.injEq, Prod.mk.injEq] at h
    obtain ⟨_, rfl⟩ := h
    have e : (fun (v : UInt64) (b : ℚ) => toyE.compress ((v.toNat : ℚ) • toyE.B + b • toyE.Bb)) =
        fun v b => ((v.toNat : ℚ), b) := by
      funext v b
      exact toy_smul _ _
    refine ⟨by rw [e], fun hv => ?_⟩
    simp only [List.all_cons, List.all_nil, Bool.and_true, List.all_eq_true]
    intro c hc
    obtain ⟨i, hi, rfl⟩ := List.mem_iff_getElem.mp hc
    simp only [List.getElem_zipWith]
    exact toyInRange_natCast _ (hv _ (List.getElem_mem _))
  asset := by
    intro v blinds pf _
    simp only [List.all_cons, List.all_nil, Bool.and_true, allEqual_iff, List.mem_map]
    rintro a ⟨c, ⟨b, _, rfl⟩, rfl⟩ a' ⟨c', ⟨b', _, rfl⟩, rfl⟩
    simp
  mix := by
    intro ins outs pf _ hb
    have key : ∀ (l : List (UInt64 × ℚ × ℚ × ℚ)) (t : ℚ),
        toySum t (l.map (fun e => (toyE.compress ((e.1.toNat : ℚ) • toyE.B + e.2.2.1 • toyE.Bb),
          toyE.compress (e.2.1 • toyE.B + e.2.2.2 • toyE.Bb)))) =
        (((l.map (fun e => if e.2.1 = t then e.1.toNat else 0)).sum : Nat) : ℚ) := by
      intro l t
      unfold toySum
      induction l with
      | nil => simp
      | cons a l ih =>
        simp only [List.map_cons, List.sum_cons, Nat.cast_add, ← ih]
        congr 1
        have e1 : (a.2.1 • toyE.B + a.2.2.2 • toyE.Bb).1 = a.2.1 := by rw [toy_smul]
        have e2 : ((a.1.toNat : ℚ) • toyE.B + a.2.2.1 • toyE.Bb).1 = (a.1.toNat : ℚ) := by rw [toy_smul]
        simp only [id] at e1 e2 ⊢
        rw [e1, e2]
        split <;> simp
    simp only [List.all_cons, List.all_nil, Bool.and_true, List.all_eq_true]
    intro x _
    have := hb x.2.1
    rw [key, key]
    simp only [beq_iff_eq, Nat.cast_inj]
    convert this

theorem toyE_pegComplete : PegComplete (fun k m r => (k, m, r)) toyE := by
  intro k l
  simp [toy_smul]

/-- records with hidden amounts and types, several asset types -/
theorem toyConf_wf (a : UInt64) (t pk : Nat) : WellFormed toyE (toyConf a t pk).oar where
  amount := by
    have := splitU64_toNat a
    simp only [toyConf]
    rw [this.1, this.2]
    exact ⟨congrArg some (toy_smul _ _).symm, congrArg some (toy_smul _ _).symm⟩
  assetType := by
    simp only [toyConf]
    exact congrArg some (toy_smul _ _).symm

/-- a two-asset confidential transfer is generated and accepted -/
example : ∃ note, toyE.genNote [toyConf 7 1 10, toyConf 5 2 10] [toyConf 5 2 20, toyConf 4 1 20, toyConf 3 1 10]
    [10, 10] = some note ∧
    toyE.verifyNote note { valid := true, inputsPolicies := [[], []], inputsSigComs := [none, none]
                           outputsPolicies := [[], [], []], outputsSigComs := [none, none, none] } = some () := by
  have hg : (toyE.genNote [toyConf 7 1 10, toyConf 5 2 10] [toyConf 5 2 20, toyConf 4 1 20, toyConf 3 1 10]
      [10, 10]).isSome = true := by decide +kernel
  obtain ⟨note, h⟩ := Option.isSome_iff_exists.mp hg
  refine ⟨note, h, ?_⟩
  refine C17_honest_note_verifies toyE (fun k m r => (k, m, r)) toyE_encoding toyE_complete toyE_batching
    toyE_pegComplete ?_ ?_ _ _ _ _ ?_ ?_ rfl rfl rfl rfl rfl ?_ ?_ note h
  · intro a b hab
    simpa using congrArg List.length hab
  · intro k m s hs
    simp at hs
    simp [← hs]
  · intro r hr
    simp only [List.cons_append, List.nil_append, List.mem_cons, List.not_mem_nil, or_false] at hr
    rcases hr with rfl | rfl | rfl | rfl | rfl <;> exact toyConf_wf _ _ _
  · intro r hr pm hpm
    simp only [List.cons_append, List.nil_append, List.mem_cons, List.not_mem_nil, or_false] at hr
    rcases hr with rfl | rfl | rfl | rfl | rfl <;> simp [toyConf] at hpm
  · intro e he
    simp at he
    rcases he with rfl | rfl <;> exact ⟨rfl, rfl, by simp [toyConf]⟩
  · intro e he
    simp at he
    rcases he with rfl | rfl | rfl <;> exact ⟨rfl, rfl, by simp [toyConf]⟩

end Verif.Xfr
