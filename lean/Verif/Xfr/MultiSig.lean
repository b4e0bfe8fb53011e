import Verif.Xfr.Props

/-!
Property C19: multi-signatures.
-/

namespace Verif.Xfr

variable {S : Types} (E : Ext S)

/-! ### Lemmas -/

theorem bytesLe_refl (a : Bytes) : bytesLe a a = true := by
  induction a with
  | nil => rfl
  | cons x a ih => simp [bytesLe, ih]

theorem bytesLe_total (a b : Bytes) : bytesLe a b = true ∨ bytesLe b a = true := by
  induction a generalizing b with
  | nil => left; rfl
  | cons x a ih =>
    cases b with
    | nil => right; rfl
    | cons y b =>
      by_cases h1 : x < y
      · left; simp [bytesLe, h1]
      · by_cases h2 : y < x
        · right; simp [bytesLe, h2]
        · simp [bytesLe, h1, h2, ih b]

theorem bytesLe_antisymm (a b : Bytes) (h1 : bytesLe a b = true) (h2 : bytesLe b a = true) : a = b := by
  induction a generalizing b with
  | nil =>
    cases b with
    | nil => rfl
    | cons y b => simp [bytesLe] at h2
  | cons x a ih =>
    cases b with
    | nil => simp [bytesLe] at h1
    | cons y b =>
      simp only [bytesLe] at h1 h2
      by_cases hx : x < y
      · have : ¬ y < x := fun h => absurd (UInt8.lt_trans hx h) (UInt8.lt_irrefl x)
        simp [hx, this] at h2
      · by_cases hy : y < x
        · simp [hx, hy] at h1
        · simp only [hx, hy, if_false] at h1 h2
          have hxy : x = y := UInt8.le_antisymm (UInt8.not_lt.mp hy) (UInt8.not_lt.mp hx)
          rw [hxy, ih b h1 h2]

theorem bytesLe_trans (a b c : Bytes) (h1 : bytesLe a b = true) (h2 : bytesLe b c = true) :
    bytesLe a c = true := by
  induction a generalizing b c with
  | nil => rfl
  | cons x a ih =>
    cases b with
    | nil => simp [bytesLe] at h1
    | cons y b =>
      cases c with
      | nil => simp [bytesLe] at h2
      | cons z c =>
        simp only [bytesLe] at h1 h2 ⊢
        by_cases hxy : x < y
        · by_cases hyz : y < z
          · simp [UInt8.lt_trans hxy hyz]
          · by_cases hzy : z < y
            · simp [hyz, hzy] at h2
            · have : y = z := UInt8.le_antisymm (UInt8.not_lt.mp hzy) (UInt8.not_lt.mp hyz)
              subst this
              simp [hxy]
        · by_cases hyx : y < x
          · simp [hxy, hyx] at h1
          · have : x = y := UInt8.le_antisymm (UInt8.not_lt.mp hyx) (UInt8.not_lt.mp hxy)
            subst this
            simp only [hxy, if_false] at h1
            by_cases hyz : x < z
            · simp [hyz]
            · by_cases hzy : z < x
              · simp [hyz, hzy] at h2
              · simp only [hyz, hzy, if_false] at h2 ⊢
                exact ih b c h1 h2

/-- ordering of keys by their encoding -/
def pkLe (a b : S.PK) : Prop := bytesLe (E.pkBytes a) (E.pkBytes b) = true

instance : DecidableRel (pkLe E) := fun a b => inferInstanceAs (Decidable (_ = true))

instance : Std.Total (pkLe E) := ⟨fun a b => bytesLe_total _ _⟩
instance : IsTrans S.PK (pkLe E) := ⟨fun _ _ _ => bytesLe_trans _ _ _⟩

theorem sorted_unique (hinj : ∀ a b, E.pkBytes a = E.pkBytes b → a = b) (l l' : List S.PK)
    (hp : l.Perm l') (h1 : l.Pairwise (pkLe E)) (h2 : l'.Pairwise (pkLe E)) : l = l' :=
  hp.eq_of_pairwise (fun a b _ _ hab hba => hinj a b (bytesLe_antisymm _ _ hab hba)) h1 h2

theorem all_zip_iff {α β : Type} (f : α → β → Bool) (l : List α) (m : List β) (h : l.length = m.length) :
    (l.zip m).all (fun e => f e.1 e.2) = true ↔ List.Forall₂ (fun a b => f a b = true) l m := by
  induction l generalizing m with
  | nil => cases m <;> simp_all
  | cons a l ih =>
    cases m with
    | nil => simp at h
    | cons b m => simp [ih m (by simpa using h)]

/-! ### C19 -/

/-- C19: a list of signatures is accepted exactly when, listing the keys in the order of their encodings, each
key is paired with a signature of the message valid under it — one signature for each key, none missing, none
spare.  Stated for *any* ordering of the keys by encoding. -/
theorem C19_accept_iff (hinj : ∀ a b, E.pkBytes a = E.pkBytes b → a = b) (sigs : List S.Sg) (pks : List S.PK)
    (msg : Bytes) :
    E.multisigVerify sigs pks msg = true ↔
      ∃ sorted : List S.PK, sorted.Perm pks ∧
        sorted.Pairwise (fun a b => bytesLe (E.pkBytes a) (E.pkBytes b) = true) ∧
        List.Forall₂ (fun pk sg => E.sigVerify pk msg sg = true) sorted sigs := by
  unfold Ext.multisigVerify
  have hperm : (pks.insertionSort (fun a b => bytesLe (E.pkBytes a) (E.pkBytes b) = true)).Perm pks :=
    List.perm_insertionSort _ _
  have hsort : (pks.insertionSort (fun a b => bytesLe (E.pkBytes a) (E.pkBytes b) = true)).Pairwise (pkLe E) :=
    List.pairwise_insertionSort (pkLe E) pks
  constructor
  · intro h
    split at h
    · simp at h
    · rename_i hlen
      rw [all_zip_iff (fun a b => E.sigVerify a msg b) _ _ (by rw [hperm.length_eq]; omega)] at h
      exact ⟨_, hperm, hsort, h⟩
  · rintro ⟨sorted, h1, h2, h3⟩
    have hl := h3.length_eq
    rw [h1.length_eq] at hl
    rw [if_neg (by omega)]
    have : pks.insertionSort (fun a b => bytesLe (E.pkBytes a) (E.pkBytes b) = true) = sorted :=
      sorted_unique E hinj _ _ (hperm.trans h1.symm) hsort h2
    rw [this, all_zip_iff (fun a b => E.sigVerify a msg b) _ _ h3.length_eq]
    exact h3

/-- C19: acceptance needs a valid signature from every listed key, and as many signatures as keys (an input
owner can neither be left out nor be replaced). -/
theorem C19_every_owner_signed (sigs : List S.Sg) (pks : List S.PK) (msg : Bytes)
    (h : E.multisigVerify sigs pks msg = true) :
    sigs.length = pks.length ∧ ∀ pk ∈ pks, ∃ sg ∈ sigs, E.sigVerify pk msg sg = true := by
  unfold Ext.multisigVerify at h
  split at h
  · simp at h
  rename_i hlen
  have hperm : (pks.insertionSort (fun a b => bytesLe (E.pkBytes a) (E.pkBytes b) = true)).Perm pks :=
    List.perm_insertionSort _ _
  rw [all_zip_iff (fun a b => E.sigVerify a msg b) _ _ (by rw [hperm.length_eq]; omega)] at h
  refine ⟨by omega, fun pk hpk => ?_⟩
  have hpk' := hperm.mem_iff.mpr hpk
  generalize pks.insertionSort (fun a b => bytesLe (E.pkBytes a) (E.pkBytes b) = true) = sorted at h hpk'
  clear * - h hpk'
  induction h with
  | nil => simp at hpk'
  | @cons a b l m h1 _ ih =>
    rcases List.mem_cons.mp hpk' with rfl | hp
    · exact ⟨b, by simp, h1⟩
    · obtain ⟨sg, hs, hv⟩ := ih hp
      exact ⟨sg, by simp [hs], hv⟩

/-- C19: the order in which the keys are listed does not matter to the verifier. -/
theorem C19_order_irrelevant (hinj : ∀ a b, E.pkBytes a = E.pkBytes b → a = b) (sigs : List S.Sg)
    (pks pks' : List S.PK) (hp : pks.Perm pks') (msg : Bytes) :
    E.multisigVerify sigs pks msg = E.multisigVerify sigs pks' msg := by
  rw [Bool.eq_iff_iff, C19_accept_iff E hinj, C19_accept_iff E hinj]
  constructor
  · rintro ⟨s, h1, h2⟩; exact ⟨s, h1.trans hp, h2⟩
  · rintro ⟨s, h1, h2⟩; exact ⟨s, h1.trans hp.symm, h2⟩

/-- C19: signatures made with the keys in any order verify under the public keys in any order. -/
theorem C19_signed_verifies (hinj : ∀ a b, E.pkBytes a = E.pkBytes b → a = b)
    (hsig : ∀ k m s, E.kpSign k m = some s → E.sigVerify (E.kpPub k) m s = true)
    (keys : List S.KP) (msg : Bytes) (sigs : List S.Sg) (h : E.multisigSign keys msg = some sigs)
    (pks : List S.PK) (hp : pks.Perm (keys.map E.kpPub)) : E.multisigVerify sigs pks msg = true := by
  rw [C19_accept_iff E hinj]
  unfold Ext.multisigSign at h
  rw [mapM_some_forall2] at h
  have : Std.Total (fun a b : S.KP => bytesLe (E.pkBytes (E.kpPub a)) (E.pkBytes (E.kpPub b)) = true) :=
    ⟨fun a b => bytesLe_total _ _⟩
  have : IsTrans S.KP (fun a b : S.KP => bytesLe (E.pkBytes (E.kpPub a)) (E.pkBytes (E.kpPub b)) = true) :=
    ⟨fun _ _ _ => bytesLe_trans _ _ _⟩
  have hsort := List.pairwise_insertionSort
    (fun a b : S.KP => bytesLe (E.pkBytes (E.kpPub a)) (E.pkBytes (E.kpPub b)) = true) keys
  have hperm := List.perm_insertionSort
    (fun a b : S.KP => bytesLe (E.pkBytes (E.kpPub a)) (E.pkBytes (E.kpPub b)) = true) keys
  refine ⟨(keys.insertionSort
    (fun a b : S.KP => bytesLe (E.pkBytes (E.kpPub a)) (E.pkBytes (E.kpPub b)) = true)).map E.kpPub,
    (hperm.map E.kpPub).trans hp.symm, ?_, ?_⟩
  · rw [List.pairwise_map]; exact hsort
  · rw [List.forall₂_map_left_iff]
    exact h.imp (fun k s hk => hsig k msg s hk)

example : ∃ sigs, toyE.multisigSign [3, 1, 2] [7] = some sigs ∧ toyE.multisigVerify sigs [2, 3, 1] [7] = true :=
  ⟨_, rfl, by decide +kernel⟩

/-- a missing signature is rejected -/
example : toyE.multisigVerify [(1, [7]), (2, [7])] [2, 3, 1] [7] = false := by decide +kernel

example : ∀ a b, toyE.pkBytes a = toyE.pkBytes b → a = b := by
  intro a b h
  have := congrArg List.length h
  simpa using this

/-- C19 for whole notes: an accepted note carries, over the serialised body, a valid signature of the owner of
every input. -/
theorem C19_accepted_note_signed [Field S.F] [AddCommGroup S.G] [Module S.F S.G] [DecidableEq S.CG]
    [DecidableEq S.AT] [DecidableEq S.EK] (notes : List (XfrNote S)) (pols : List (Policies S))
    (h : E.batchVerifyNotes notes pols = some ()) (n : XfrNote S) (hn : n ∈ notes) :
    ∃ bytes, E.ser n.body = some bytes ∧ n.signatures.length = n.body.inputs.length ∧
      ∀ r ∈ n.body.inputs, ∃ sg ∈ n.signatures, E.sigVerify r.publicKey bytes sg = true := by
  unfold Ext.batchVerifyNotes at h
  split at h
  swap
  · simp at h
  rename_i hall
  have hv := List.all_eq_true.mp hall n hn
  unfold Ext.verifyTransferMultisig at hv
  split at hv
  · simp at hv
  rename_i bytes hb
  obtain ⟨h1, h2⟩ := C19_every_owner_signed E _ _ _ hv
  refine ⟨bytes, hb, by simpa using h1, fun r hr => ?_⟩
  exact h2 r.publicKey (List.mem_map.mpr ⟨r, hr, rfl⟩)

end Verif.Xfr
