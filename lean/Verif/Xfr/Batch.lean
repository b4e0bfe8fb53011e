import Verif.Xfr.Tracing

/-!
Property C18: batch verification accepts exactly when every transfer is accepted on its own.
-/

namespace Verif.Xfr

open Spec

section
variable {S : Types} [Field S.F] [AddCommGroup S.G] [Module S.F S.G] [DecidableEq S.CG]
  [DecidableEq S.AT] [DecidableEq S.EK] (E : Ext S)

/-! ### Characterisation of the deferred checks -/

theorem bind_unit_iff {α : Type} (x : Option α) (f : α → Option Unit) :
    (x.bind f = some ()) ↔ ∃ a, x = some a ∧ f a = some () := by
  rw [Option.bind_eq_some_iff]

theorem ite_unit_iff (b : Bool) : (if b = true then some () else none : Option Unit) = some () ↔ b = true := by
  cases b <;> simp

theorem forall2_zip_all {α β γ : Type} (R : α → β → Prop) (g : α → γ) (P : γ × β → Bool) (l : List α) (ys : List β)
    (h : List.Forall₂ R l ys) :
    ((l.map g).zip ys).all P = true ↔ List.Forall₂ (fun a b => R a b ∧ P (g a, b) = true) l ys := by
  induction h with
  | nil => simp
  | cons h1 h2 ih =>
    simp only [List.map_cons, List.zip_cons_cons, List.all_cons, Bool.and_eq_true, List.forall₂_cons]
    rw [ih]
    simp [h1]

theorem exists_forall2_iff {α β : Type} (R : α → β → Prop) (l : List α) :
    (∃ ys, List.Forall₂ R l ys) ↔ ∀ a ∈ l, ∃ b, R a b := by
  induction l with
  | nil => simp
  | cons a l ih =>
    constructor
    · rintro ⟨ys, h⟩
      cases h with
      | @cons _ b _ bs h1 h2 =>
        intro x hx
        rcases List.mem_cons.mp hx with rfl | hx
        · exact ⟨b, h1⟩
        · exact ih.mp ⟨bs, h2⟩ x hx
    · intro h
      obtain ⟨b, hb⟩ := h a (by simp)
      obtain ⟨bs, hbs⟩ := ih.mpr (fun x hx => h x (by simp [hx]))
      exact ⟨b :: bs, .cons hb hbs⟩

omit [DecidableEq S.AT] [DecidableEq S.EK] in
theorem batchAmount_iff (hB : Batching E)
    (l : List (List (BlindAssetRecord S) × List (BlindAssetRecord S) × RangeProof S)) :
    E.batchConfidentialAmount l = some () ↔
      ∀ e ∈ l, ∃ coms, E.extractValueCommitments e.1 e.2.1 e.2.2 = some coms ∧
        E.batchRanges [(e.2.2.proof, coms)] = true := by
  unfold Ext.batchConfidentialAmount
  rw [Option.bind_eq_bind, bind_unit_iff]
  simp only [ite_unit_iff]
  rw [← exists_forall2_iff]
  constructor
  · rintro ⟨coms, h1, h2⟩
    rw [mapM_some_forall2] at h1
    rw [hB.ranges, forall2_zip_all _ _ _ _ _ h1] at h2
    exact ⟨coms, h2⟩
  · rintro ⟨coms, h⟩
    have h1 := h.imp (fun _ _ h => h.1)
    refine ⟨coms, (mapM_some_forall2 _ _ _).mpr h1, ?_⟩
    rw [hB.ranges, forall2_zip_all _ _ _ _ _ h1]
    exact h

theorem all_forall2 {α β : Type} (R : α → β → Prop) (P : β → Bool) (l : List α) (ys : List β)
    (h : List.Forall₂ R l ys) :
    ys.all P = true ↔ List.Forall₂ (fun a b => R a b ∧ P b = true) l ys := by
  induction h with
  | nil => simp
  | cons h1 h2 ih =>
    simp only [List.all_cons, Bool.and_eq_true, List.forall₂_cons]
    rw [ih]
    simp [h1]

/-- shape shared by the remaining batch checks -/
theorem mapM_all_iff {α β : Type} (f : α → Option β) (V : List β → Bool)
    (hV : ∀ l, V l = l.all (fun e => V [e])) (l : List α) :
    ((l.mapM f).bind (fun ys => if V ys = true then some () else none) = some ()) ↔
      ∀ a ∈ l, ∃ b, f a = some b ∧ V [b] = true := by
  rw [bind_unit_iff]
  simp only [ite_unit_iff]
  rw [← exists_forall2_iff]
  constructor
  · rintro ⟨ys, h1, h2⟩
    rw [mapM_some_forall2] at h1
    rw [hV, all_forall2 _ _ _ _ h1] at h2
    exact ⟨ys, h2⟩
  · rintro ⟨ys, h⟩
    have h1 := h.imp (fun _ _ h => h.1)
    refine ⟨ys, (mapM_some_forall2 _ _ _).mpr h1, ?_⟩
    rw [hV, all_forall2 _ _ _ _ h1]
    exact h

/-- the checks a body has to pass on its own account -/
def BodyOk (b : XfrBody S) : Prop :=
  match b.amountProof with
  | .confAll p q =>
    E.batchConfidentialAmount [(b.inputs, b.outputs, p)] = some () ∧
    E.batchConfidentialAsset [(b.inputs, b.outputs, q)] = some ()
  | .confAmount p =>
    verifyPlainAsset b.inputs b.outputs = some () ∧
    E.batchConfidentialAmount [(b.inputs, b.outputs, p)] = some ()
  | .confAsset q =>
    verifyPlainAmounts b.inputs b.outputs = some () ∧
    E.batchConfidentialAsset [(b.inputs, b.outputs, q)] = some ()
  | .noProof => verifyPlainAssetMix b.inputs b.outputs = some ()
  | .assetMix p => E.batchAssetMix [(b.inputs, b.outputs, p)] = some ()

/-- plain checks of a body -/
def plainOk (b : XfrBody S) : Prop :=
  match b.amountProof with
  | .confAll _ _ => True
  | .confAmount _ => verifyPlainAsset b.inputs b.outputs = some ()
  | .confAsset _ => verifyPlainAmounts b.inputs b.outputs = some ()
  | .noProof => verifyPlainAssetMix b.inputs b.outputs = some ()
  | .assetMix _ => True

/-- deferred checks of a body -/
def deferredOf (b : XfrBody S) : Deferred S :=
  match b.amountProof with
  | .confAll p q => ⟨[(b.inputs, b.outputs, p)], [(b.inputs, b.outputs, q)], []⟩
  | .confAmount p => ⟨[(b.inputs, b.outputs, p)], [], []⟩
  | .confAsset q => ⟨[], [(b.inputs, b.outputs, q)], []⟩
  | .noProof => ⟨[], [], []⟩
  | .assetMix p => ⟨[], [], [(b.inputs, b.outputs, p)]⟩

omit [Field S.F] [AddCommGroup S.G] [Module S.F S.G] [DecidableEq S.CG] [DecidableEq S.EK] in
theorem dispatch_iff (d d' : Deferred S) (b : XfrBody S) :
    dispatch d b = some d' ↔ plainOk b ∧
      d' = ⟨d.amounts ++ (deferredOf b).amounts, d.assets ++ (deferredOf b).assets,
        d.mixes ++ (deferredOf b).mixes⟩ := by
  unfold dispatch plainOk deferredOf
  cases b.amountProof with
  | confAll p q => simp [eq_comm]
  | confAmount p =>
    cases h : verifyPlainAsset b.inputs b.outputs <;> simp [eq_comm]
  | confAsset p =>
    cases h : verifyPlainAmounts b.inputs b.outputs <;> simp [eq_comm]
  | noProof =>
    cases h : verifyPlainAssetMix b.inputs b.outputs with
    | none => simp
    | some u =>
      obtain ⟨a, b, c⟩ := d
      simp [eq_comm]
  | assetMix p => simp [eq_comm]

omit [Field S.F] [AddCommGroup S.G] [Module S.F S.G] [DecidableEq S.CG] [DecidableEq S.EK] in
theorem fold_dispatch_iff (bodies : List (XfrBody S)) (d d' : Deferred S) :
    bodies.foldlM dispatch d = some d' ↔ (∀ b ∈ bodies, plainOk b) ∧
      d' = ⟨d.amounts ++ bodies.flatMap (fun b => (deferredOf b).amounts),
        d.assets ++ bodies.flatMap (fun b => (deferredOf b).assets),
        d.mixes ++ bodies.flatMap (fun b => (deferredOf b).mixes)⟩ := by
  induction bodies generalizing d with
  | nil => simp [eq_comm]
  | cons b bs ih =>
    rw [List.foldlM_cons, Option.bind_eq_bind, Option.bind_eq_some_iff]
    simp only [dispatch_iff, ih]
    constructor
    · rintro ⟨d1, ⟨h1, rfl⟩, h2, rfl⟩
      refine ⟨?_, by simp⟩
      intro x hx
      rcases List.mem_cons.mp hx with rfl | hx
      · exact h1
      · exact h2 x hx
    · rintro ⟨h1, rfl⟩
      exact ⟨_, ⟨h1 b (by simp), rfl⟩, fun x hx => h1 x (by simp [hx]), by simp⟩

omit [DecidableEq S.EK] in
theorem batchAssetRecords_iff (hB : Batching E) (bodies : List (XfrBody S)) :
    E.batchAssetRecords bodies = some () ↔ ∀ b ∈ bodies, BodyOk E b := by
  have hA := batchAmount_iff E hB
  have hS := fun l => mapM_all_iff (fun e : List (BlindAssetRecord S) × List (BlindAssetRecord S) × S.AP => do
    let coms ← (e.1 ++ e.2.1).mapM (fun r => E.typeCom r.assetType)
    pure (coms, e.2.2)) E.batchAsset hB.asset l
  have hM := fun l => mapM_all_iff (fun e : List (BlindAssetRecord S) × List (BlindAssetRecord S) × S.MP => do
    let i ← E.processBars e.1
    let o ← E.processBars e.2.1
    pure (i, o, e.2.2)) E.batchMix hB.mix l
  have hS' : ∀ l, E.batchConfidentialAsset l = some () ↔ ∀ e ∈ l, E.batchConfidentialAsset [e] = some () := by
    intro l
    unfold Ext.batchConfidentialAsset
    simp only [Option.bind_eq_bind] at hS ⊢
    rw [hS]
    refine forall_congr' fun e => forall_congr' fun _ => ?_
    rw [hS]; simp
  have hM' : ∀ l, E.batchAssetMix l = some () ↔ ∀ e ∈ l, E.batchAssetMix [e] = some () := by
    intro l
    unfold Ext.batchAssetMix
    simp only [Option.bind_eq_bind] at hM ⊢
    rw [hM]
    refine forall_congr' fun e => forall_congr' fun _ => ?_
    rw [hM]; simp
  have hA' : ∀ l, E.batchConfidentialAmount l = some () ↔ ∀ e ∈ l, E.batchConfidentialAmount [e] = some () := by
    intro l
    rw [hA]
    refine forall_congr' fun e => forall_congr' fun _ => ?_
    rw [hA]; simp
  have hX : E.batchAssetRecords bodies = some () ↔
      (∀ b ∈ bodies, plainOk b) ∧
      E.batchConfidentialAmount (bodies.flatMap (fun b => (deferredOf b).amounts)) = some () ∧
      E.batchConfidentialAsset (bodies.flatMap (fun b => (deferredOf b).assets)) = some () ∧
      E.batchAssetMix (bodies.flatMap (fun b => (deferredOf b).mixes)) = some () := by
    unfold Ext.batchAssetRecords
    rw [Option.bind_eq_bind, bind_unit_iff]
    simp only [fold_dispatch_iff, Option.bind_eq_bind, bind_unit_iff]
    constructor
    · rintro ⟨d, ⟨h1, rfl⟩, _, h2, _, h3, h4⟩
      exact ⟨h1, by simpa using h2, by simpa using h3, by simpa using h4⟩
    · rintro ⟨h1, h2, h3, h4⟩
      exact ⟨_, ⟨h1, rfl⟩, (), by simpa using h2, (), by simpa using h3, by simpa using h4⟩
  rw [hX, hA', hS', hM']
  have hfl : ∀ {α : Type} (f : XfrBody S → List α) (P : α → Prop),
      (∀ e ∈ bodies.flatMap f, P e) ↔ ∀ b ∈ bodies, ∀ e ∈ f b, P e := by
    intro α f P
    simp only [List.mem_flatMap]
    exact ⟨fun h b hb e he => h e ⟨b, hb, he⟩, fun h e ⟨b, hb, he⟩ => h b hb e he⟩
  rw [hfl, hfl, hfl]
  have hbody : ∀ b : XfrBody S, BodyOk E b ↔ plainOk b ∧
      (∀ e ∈ (deferredOf b).amounts, E.batchConfidentialAmount [e] = some ()) ∧
      (∀ e ∈ (deferredOf b).assets, E.batchConfidentialAsset [e] = some ()) ∧
      (∀ e ∈ (deferredOf b).mixes, E.batchAssetMix [e] = some ()) := by
    intro b
    unfold BodyOk plainOk deferredOf
    cases b.amountProof <;> simp
  simp only [hbody]
  constructor
  · rintro ⟨h1, h2, h3, h4⟩ b hb
    exact ⟨h1 b hb, h2 b hb, h3 b hb, h4 b hb⟩
  · intro h
    exact ⟨fun b hb => (h b hb).1, fun b hb => (h b hb).2.1, fun b hb => (h b hb).2.2.1,
      fun b hb => (h b hb).2.2.2⟩

/-! ### Tracing -/

omit [Field S.F] [AddCommGroup S.G] [Module S.F S.G] [DecidableEq S.CG] [DecidableEq S.AT] in
theorem batchTracing_iff (hB : Batching E)
    (l : List (XfrBody S × List (List (TracingPolicy S)) × List (List (TracingPolicy S)))) :
    E.batchTracing l = some () ↔ ∀ e ∈ l, ∃ m, tracingInstances e.1 e.2.1 e.2.2 = some m ∧
      ∀ x ∈ m.zip e.1.tracingProofs, ∃ cc, E.extractCtexts x.1.2 = some cc ∧
        E.batchPeg [(x.1.1, cc.1, cc.2, x.2)] = true := by
  unfold Ext.batchTracing
  rw [Option.bind_eq_bind, bind_unit_iff]
  have hP := fun l => mapM_all_iff (fun e : (S.EK × List (BlindAssetRecord S × TracerMemo S)) × S.TPf => do
    let cc ← E.extractCtexts e.1.2
    pure (e.1.1, cc.1, cc.2, e.2)) E.batchPeg hB.peg l
  simp only [Option.bind_eq_bind] at hP ⊢
  simp only [hP]
  rw [← exists_forall2_iff]
  refine exists_congr fun maps => ?_
  rw [mapM_some_forall2]
  have hpt : ∀ x : (S.EK × List (BlindAssetRecord S × TracerMemo S)) × S.TPf,
      (∃ b, ((E.extractCtexts x.1.2).bind fun cc => pure (x.1.1, cc.1, cc.2, x.2)) = some b ∧
        E.batchPeg [b] = true) ↔
      ∃ cc, E.extractCtexts x.1.2 = some cc ∧ E.batchPeg [(x.1.1, cc.1, cc.2, x.2)] = true := by
    intro x
    cases E.extractCtexts x.1.2 <;> simp
  simp only [hpt]
  constructor
  · rintro ⟨h1, h2⟩
    induction h1 with
    | nil => exact .nil
    | cons h3 h4 ih =>
      simp only [List.map_cons, List.zip_cons_cons, List.flatMap_cons, List.mem_append] at h2
      exact .cons ⟨h3, fun x hx => h2 x (.inl hx)⟩ (ih (fun x hx => h2 x (.inr hx)))
  · intro h
    refine ⟨h.imp (fun _ _ h => h.1), ?_⟩
    induction h with
    | nil => simp
    | cons h3 h4 ih =>
      intro x hx
      simp only [List.map_cons, List.zip_cons_cons, List.flatMap_cons, List.mem_append] at hx
      rcases hx with hx | hx
      · exact h3.2 x hx
      · exact ih x hx

omit [Field S.F] [AddCommGroup S.G] [Module S.F S.G] [DecidableEq S.CG] [DecidableEq S.AT] in
theorem batchTracerTracing_iff (hB : Batching E) (bodies : List (XfrBody S)) (pols : List (Policies S)) :
    E.batchTracerTracing bodies pols = some () ↔ bodies.length = pols.length ∧
      ∀ e ∈ bodies.zip pols, e.2.valid = true ∧
        E.batchTracing [(e.1, e.2.inputsPolicies, e.2.outputsPolicies)] = some () ∧
        E.identityBody e.1 e.2 = true := by
  unfold Ext.batchTracerTracing
  by_cases hl : bodies.length = pols.length
  swap
  · simp [hl]
  rw [if_neg (not_not.mpr hl)]
  have hzm : bodies.zip (pols.map (fun p => (p.inputsPolicies, p.outputsPolicies))) =
      (bodies.zip pols).map (fun e => (e.1, e.2.inputsPolicies, e.2.outputsPolicies)) := by
    rw [List.zip_map_right]
    rfl
  have hval : pols.all (·.valid) = true ↔ ∀ e ∈ bodies.zip pols, e.2.valid = true := by
    rw [List.all_eq_true]
    constructor
    · intro h e he
      exact h e.2 (List.of_mem_zip he).2
    · intro h p hp
      obtain ⟨i, hi, rfl⟩ := List.mem_iff_getElem.mp hp
      have hi' : i < bodies.length := by omega
      exact h (bodies[i], pols[i]) (by
        rw [List.mem_iff_getElem]
        exact ⟨i, by simp; omega, by simp⟩)
  have htr : E.batchTracing (bodies.zip (pols.map (fun p => (p.inputsPolicies, p.outputsPolicies)))) = some () ↔
      ∀ e ∈ bodies.zip pols, E.batchTracing [(e.1, e.2.inputsPolicies, e.2.outputsPolicies)] = some () := by
    rw [hzm, batchTracing_iff E hB]
    simp only [List.mem_map, forall_exists_index, and_imp, forall_apply_eq_imp_iff₂]
    refine forall_congr' fun e => forall_congr' fun _ => ?_
    rw [batchTracing_iff E hB]
    simp
  by_cases hv : pols.all (·.valid) = true
  · rw [if_neg (not_not.mpr hv), Option.bind_eq_bind, bind_unit_iff]
    simp only [ite_unit_iff]
    simp only [List.all_eq_true]
    rw [hval] at hv
    constructor
    · rintro ⟨_, h1, h2⟩
      rw [htr] at h1
      exact ⟨hl, fun e he => ⟨hv e he, h1 e he, h2 e he⟩⟩
    · rintro ⟨_, h⟩
      exact ⟨(), htr.mpr (fun e he => (h e he).2.1), fun e he => (h e he).2.2⟩
  · rw [if_pos hv]
    rw [hval] at hv
    simp only [reduceCtorEq, false_iff, not_and]
    intro _ h
    exact hv (fun e he => (h e he).1)

/-! ### C18 -/

/-- C18: a batch of bodies is accepted exactly when there is one policy set for each body and every body is
accepted on its own. -/
theorem C18_batch_bodies (hB : Batching E) (bodies : List (XfrBody S)) (pols : List (Policies S)) :
    E.batchVerifyBodies bodies pols = some () ↔
      bodies.length = pols.length ∧ ∀ e ∈ bodies.zip pols, E.verifyBody e.1 e.2 = some () := by
  have hsplit : ∀ bodies pols, E.batchVerifyBodies bodies pols = some () ↔
      (∀ b ∈ bodies, BodyOk E b) ∧ bodies.length = pols.length ∧
      ∀ e ∈ bodies.zip pols, e.2.valid = true ∧
        E.batchTracing [(e.1, e.2.inputsPolicies, e.2.outputsPolicies)] = some () ∧
        E.identityBody e.1 e.2 = true := by
    intro bodies pols
    unfold Ext.batchVerifyBodies
    rw [Option.bind_eq_bind, bind_unit_iff]
    simp only [batchAssetRecords_iff E hB, batchTracerTracing_iff E hB]
    simp
  rw [hsplit]
  constructor
  · rintro ⟨h1, h2, h3⟩
    refine ⟨h2, fun e he => ?_⟩
    unfold Ext.verifyBody
    rw [hsplit]
    refine ⟨?_, rfl, ?_⟩
    · intro b hb
      rw [List.mem_singleton.mp hb]
      exact h1 _ (List.of_mem_zip he).1
    · intro x hx
      simp only [List.zip_cons_cons, List.zip_nil_right, List.mem_singleton] at hx
      subst hx
      exact h3 e he
  · rintro ⟨h1, h2⟩
    have h3 : ∀ e ∈ bodies.zip pols, BodyOk E e.1 ∧ e.2.valid = true ∧
        E.batchTracing [(e.1, e.2.inputsPolicies, e.2.outputsPolicies)] = some () ∧
        E.identityBody e.1 e.2 = true := by
      intro e he
      have := h2 e he
      unfold Ext.verifyBody at this
      rw [hsplit] at this
      exact ⟨this.1 e.1 (by simp), this.2.2 e (by simp)⟩
    refine ⟨?_, h1, fun e he => (h3 e he).2⟩
    intro b hb
    obtain ⟨i, hi, rfl⟩ := List.mem_iff_getElem.mp hb
    have hi' : i < pols.length := by omega
    exact (h3 (bodies[i], pols[i]) (by
      rw [List.mem_iff_getElem]
      exact ⟨i, by simp; omega, by simp⟩)).1

/-- C18: a batch of notes is accepted exactly when there is one policy set for each note and every note is
accepted on its own.  In particular an invalid note cannot hide in a batch, and valid notes never spoil it. -/
theorem C18_batch_notes (hB : Batching E) (notes : List (XfrNote S)) (pols : List (Policies S)) :
    E.batchVerifyNotes notes pols = some () ↔
      notes.length = pols.length ∧ ∀ e ∈ notes.zip pols, E.verifyNote e.1 e.2 = some () := by
  have hone : ∀ (n : XfrNote S) (p : Policies S), E.verifyNote n p = some () ↔
      E.verifyTransferMultisig n = true ∧ E.verifyBody n.body p = some () := by
    intro n p
    unfold Ext.verifyNote Ext.batchVerifyNotes Ext.verifyBody
    cases h : E.verifyTransferMultisig n <;> simp [h]
  simp only [hone]
  have hmem : notes.length = pols.length → ((∀ n ∈ notes, E.verifyTransferMultisig n = true) ↔
      ∀ e ∈ notes.zip pols, E.verifyTransferMultisig e.1 = true) := by
    intro hl
    constructor
    · intro h e he; exact h _ (List.of_mem_zip he).1
    · intro h n hn
      obtain ⟨i, hi, rfl⟩ := List.mem_iff_getElem.mp hn
      have hi' : i < pols.length := by omega
      exact h (notes[i], pols[i]) (by
        rw [List.mem_iff_getElem]
        exact ⟨i, by simp; omega, by simp⟩)
  have hz : (notes.map (·.body)).zip pols = (notes.zip pols).map (fun e => (e.1.body, e.2)) := by
    rw [List.zip_map_left]
    rfl
  unfold Ext.batchVerifyNotes
  constructor
  · intro h
    split at h
    swap
    · simp at h
    rename_i hall
    rw [List.all_eq_true] at hall
    rw [C18_batch_bodies E hB, hz] at h
    have hl : notes.length = pols.length := by simpa using h.1
    refine ⟨hl, fun e he => ⟨(hmem hl).mp hall e he, ?_⟩⟩
    exact h.2 (e.1.body, e.2) (List.mem_map.mpr ⟨e, he, rfl⟩)
  · rintro ⟨hl, h⟩
    rw [if_pos]
    · rw [C18_batch_bodies E hB, hz]
      refine ⟨by simpa using hl, fun e he => ?_⟩
      obtain ⟨x, hx, rfl⟩ := List.mem_map.mp he
      exact (h x hx).2
    · rw [List.all_eq_true]
      exact (hmem hl).mpr (fun e he => (h e he).1)

theorem toyE_batching : Batching toyE where
  ranges := fun l => by simp
  asset := fun l => by simp
  mix := fun l => by simp
  peg := fun l => by simp

/-- two different notes accepted in one batch -/
example : ∃ n m, toyE.genNote [toyRec 3 1 0, toyTraced 2 1 7] [toyTraced 5 1 8] [0, 7] = some n ∧
    toyNote = some m ∧ toyE.batchVerifyNotes [n, m] [toyTracedPolicies, toyNoPolicies 2 3] = some () :=
  ⟨(toyE.genNote [toyRec 3 1 0, toyTraced 2 1 7] [toyTraced 5 1 8] [0, 7]).get (by decide +kernel),
    toyNote.get (by decide +kernel), by simp, by simp, by decide +kernel⟩

end

end Verif.Xfr
