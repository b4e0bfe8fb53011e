import Verif.Anon.ConvertVerify

/-!
C78: batch verification of conversion notes.  C79: malformed conversion notes.  C81: who authorises the conversion of an
ordinary record.
-/

namespace Verif.Anon

open Verif.DelegatedSchnorr (Tr Msg)
open Verif.Xfr (BlindAssetRecord splitU64)

/-! ### Lists -/

theorem all_zip {α β : Type} (l : List α) (m : List β) (f : α × β → Bool) :
    (l.zip m).all f = true ↔ ∀ (i : Nat) a b, l[i]? = some a → m[i]? = some b → f (a, b) = true := by
  rw [List.all_eq_true]
  constructor
  · intro H i a b h1 h2
    exact H _ (List.mem_of_getElem? (i := i) (List.getElem?_zip_eq_some.mpr ⟨h1, h2⟩))
  · rintro H ⟨a, b⟩ hm
    obtain ⟨i, hi⟩ := List.getElem?_of_mem hm
    obtain ⟨h1, h2⟩ := List.getElem?_zip_eq_some.mp hi
    exact H i a b h1 h2

theorem all_zip3 {α β γ : Type} (l : List α) (m : List β) (n : List γ) (f : (α × β) × γ → Bool) :
    ((l.zip m).zip n).all f = true ↔
      ∀ (i : Nat) a b c, l[i]? = some a → m[i]? = some b → n[i]? = some c → f ((a, b), c) = true := by
  rw [all_zip]
  constructor
  · intro H i a b c h1 h2 h3
    exact H i (a, b) c (List.getElem?_zip_eq_some.mpr ⟨h1, h2⟩) h3
  · rintro H i ⟨a, b⟩ c h1 h3
    obtain ⟨h1, h2⟩ := List.getElem?_zip_eq_some.mp h1
    exact H i a b c h1 h2 h3

section
variable {S : Xfr.Types} {P Q : SimFr.Params} {F Par Pf G Hs Mp : Type} [Field F]

/-! ### C78 -/

/-- C78, transparent to anonymous: a batch is accepted iff every note is accepted by itself. -/
theorem C78_ar_to_abar_batch (E : ConvExt S Q F Par Pf) (ser : ArToAbarBody S F Pf → Option Bytes) (par : Par)
    (notes : List (ArToAbarNote S F Pf)) :
    E.batchArToAbar ser par notes = true ↔ ∀ note ∈ notes, E.verifyArToAbar ser par note = .ok () := by
  unfold ConvExt.batchArToAbar
  simp

section
variable [DecidableEq F] [Fact P.r.Prime] [AddCommGroup G] [DecidableEq G] [Module (ZMod P.r) G]

theorem verifyAbarToAr_iff (E : ConvExt S Q F Par Pf) (X : FoldExt P F G Hs Mp) (par : Par)
    (note : AbarToArNote S P F Pf G Mp) (root : F) (h : Hs) :
    E.verifyAbarToAr X par note root h = .ok () ↔
      (note.output.amount.isConfidential = false ∧ note.output.assetType.isConfidential = false) ∧ root = note.root ∧
        E.checkAbarToAr X par note root h = .ok () := by
  unfold ConvExt.verifyAbarToAr ConvExt.checkAbarToAr
  cases ha : note.output.amount <;> cases ht : note.output.assetType <;>
    simp only [Xfr.XfrAmount.isConfidential, Xfr.XfrAssetType.isConfidential, Bool.true_eq_false, false_and, and_false,
      reduceCtorEq, true_and]
  rw [Res.bind_eq_ok, Res.bind_eq_ok]
  constructor
  · rintro ⟨c, h1, h2⟩
    obtain ⟨f, h2, h3⟩ := Res.bind_eq_ok.mp h2
    by_cases hr : root = note.root
    · rw [if_neg (by simpa using hr)] at h3
      exact ⟨hr, c, h1, Res.bind_eq_ok.mpr ⟨f, h2, h3⟩⟩
    · rw [if_pos hr] at h3
      cases h3
  · rintro ⟨hr, c, h1, h2⟩
    obtain ⟨f, h2, h3⟩ := Res.bind_eq_ok.mp h2
    exact ⟨c, h1, Res.bind_eq_ok.mpr ⟨f, h2, by rw [if_neg (by simpa using hr)]; exact h3⟩⟩

/-- C78, the exact meaning of the batch verifier for anonymous to transparent: confidential outputs are rejected anywhere,
roots are compared where there is a root, and a note is verified only if there are a root and a hash at its position. -/
theorem C78_abar_to_ar_batch_iff (E : ConvExt S Q F Par Pf) (X : FoldExt P F G Hs Mp) (par : Par)
    (notes : List (AbarToArNote S P F Pf G Mp)) (roots : List F) (hs : List Hs) :
    E.batchAbarToAr X par notes roots hs = true ↔
      (∀ note ∈ notes, note.output.amount.isConfidential = false ∧ note.output.assetType.isConfidential = false) ∧
      (∀ (i : Nat) root note, roots[i]? = some root → notes[i]? = some note → root = note.root) ∧
      ∀ (i : Nat) note root h, notes[i]? = some note → roots[i]? = some root → hs[i]? = some h →
        E.verifyAbarToAr X par note root h = .ok () := by
  unfold ConvExt.batchAbarToAr
  by_cases hc : notes.any (fun n => n.output.amount.isConfidential || n.output.assetType.isConfidential) = true
  · rw [if_pos hc]
    obtain ⟨n, hn, hn'⟩ := List.any_eq_true.mp hc
    simp only [Bool.false_eq_true, false_iff]
    rintro ⟨h, -⟩
    obtain ⟨h1, h2⟩ := h n hn
    rw [h1, h2] at hn'
    simp at hn'
  · rw [if_neg hc]
    have hplain : ∀ note ∈ notes, note.output.amount.isConfidential = false ∧ note.output.assetType.isConfidential = false := by
      intro n hn
      have hc := Bool.eq_false_iff.mpr hc
      rw [List.any_eq_false] at hc
      simpa using hc n hn
    have hroot : ((roots.zip notes).any (fun (x, y) => x ≠ y.root) = false) ↔
        ∀ (i : Nat) root (note : AbarToArNote S P F Pf G Mp), roots[i]? = some root → notes[i]? = some note →
          root = note.root := by
      rw [List.any_eq_false]
      constructor
      · intro h i root note h1 h2
        simpa using h (root, note) (List.mem_of_getElem? (i := i) (List.getElem?_zip_eq_some.mpr ⟨h1, h2⟩))
      · rintro h ⟨root, note⟩ hm
        obtain ⟨i, hi⟩ := List.getElem?_of_mem hm
        obtain ⟨h1, h2⟩ := List.getElem?_zip_eq_some.mp hi
        simpa using h i root note h1 h2
    by_cases hr : (roots.zip notes).any (fun (x, y) => x ≠ y.root) = true
    · rw [if_pos hr]
      simp only [Bool.false_eq_true, false_iff]
      rintro ⟨-, h, -⟩
      rw [hroot.mpr h] at hr
      simp at hr
    · rw [if_neg hr, all_zip3]
      have hr := hroot.mp (by simpa using hr)
      simp only [decide_eq_true_eq]
      constructor
      · intro H
        exact ⟨hplain, hr, fun i note root h h1 h2 h3 => (verifyAbarToAr_iff E X par note root h).mpr
          ⟨hplain _ (List.mem_of_getElem? h1), hr i root note h2 h1, H i note root h h1 h2 h3⟩⟩
      · rintro ⟨-, -, H⟩ i note root h h1 h2 h3
        exact ((verifyAbarToAr_iff E X par note root h).mp (H i note root h h1 h2 h3)).2.2

/-- C78, anonymous to transparent, for lists of one length: the batch is accepted iff every note is accepted by itself.
Missing: lists of different lengths, see `C78_abar_to_ar_ignores`. -/
theorem C78_abar_to_ar_batch_partial (E : ConvExt S Q F Par Pf) (X : FoldExt P F G Hs Mp) (par : Par)
    (notes : List (AbarToArNote S P F Pf G Mp)) (roots : List F) (hs : List Hs) (h1 : roots.length = notes.length)
    (h2 : hs.length = notes.length) :
    E.batchAbarToAr X par notes roots hs = true ↔
      ∀ i (hi : i < notes.length), E.verifyAbarToAr X par notes[i] (roots[i]'(h1 ▸ hi)) (hs[i]'(h2 ▸ hi)) = .ok () := by
  rw [C78_abar_to_ar_batch_iff]
  constructor
  · rintro ⟨-, -, H⟩ i hi
    exact H i _ _ _ (List.getElem?_eq_getElem _) (List.getElem?_eq_getElem _) (List.getElem?_eq_getElem _)
  · intro H
    refine ⟨fun note hn => ?_, fun i root note e1 e2 => ?_, fun i note root h e1 e2 e3 => ?_⟩
    · obtain ⟨i, hi, rfl⟩ := List.getElem_of_mem hn
      exact ((verifyAbarToAr_iff E X par _ _ _).mp (H i hi)).1
    · obtain ⟨hi, rfl⟩ := List.getElem?_eq_some_iff.mp e2
      obtain ⟨_, rfl⟩ := List.getElem?_eq_some_iff.mp e1
      exact ((verifyAbarToAr_iff E X par _ _ _).mp (H i hi)).2.1
    · obtain ⟨hi, rfl⟩ := List.getElem?_eq_some_iff.mp e1
      obtain ⟨_, rfl⟩ := List.getElem?_eq_some_iff.mp e2
      obtain ⟨_, rfl⟩ := List.getElem?_eq_some_iff.mp e3
      exact H i hi

/-- C78 is violated: without hashes (or without roots) a batch of transparent outputs is accepted whatever its proofs are. -/
theorem C78_abar_to_ar_ignores (E : ConvExt S Q F Par Pf) (X : FoldExt P F G Hs Mp) (par : Par)
    (notes : List (AbarToArNote S P F Pf G Mp))
    (hn : ∀ note ∈ notes, note.output.amount.isConfidential = false ∧ note.output.assetType.isConfidential = false) :
    E.batchAbarToAr X par notes (notes.map (·.root)) [] = true ∧ ∀ hs, E.batchAbarToAr X par notes [] hs = true := by
  refine ⟨(C78_abar_to_ar_batch_iff ..).mpr ⟨hn, ?_, ?_⟩, fun hs => (C78_abar_to_ar_batch_iff ..).mpr ⟨hn, ?_, ?_⟩⟩
  · intro i root note h1 h2
    rw [List.getElem?_map, h2] at h1
    simpa using h1.symm
  · intro i note root h _ _ h3
    simp at h3
  · intro i root note h1
    simp at h1
  · intro i note root h _ h2
    simp at h2

end

section
variable [Fact Q.r.Prime] [AddCommGroup S.G] [DecidableEq S.G] [Module (ZMod Q.r) S.G]

/-- C78, the exact meaning of the batch verifier for confidential to anonymous: a note is verified only if there is a key at
its position. -/
theorem C78_bar_to_abar_batch_iff (E : ConvExt S Q F Par Pf) (ser : BarToAbarBody S Q F Pf → Option Bytes) (par : Par)
    (notes : List (BarToAbarNote S Q F Pf)) (keys : List S.PK) :
    E.batchBarToAbar ser par notes keys = true ↔
      ∀ (i : Nat) note key, notes[i]? = some note → keys[i]? = some key → E.verifyBarToAbar ser par note key = .ok () := by
  unfold ConvExt.batchBarToAbar
  rw [all_zip]
  simp

/-- C78, confidential to anonymous, for lists of one length.  Missing: see `C78_bar_to_abar_ignores`. -/
theorem C78_bar_to_abar_batch_partial (E : ConvExt S Q F Par Pf) (ser : BarToAbarBody S Q F Pf → Option Bytes) (par : Par)
    (notes : List (BarToAbarNote S Q F Pf)) (keys : List S.PK) (hl : keys.length = notes.length) :
    E.batchBarToAbar ser par notes keys = true ↔
      ∀ i (hi : i < notes.length), E.verifyBarToAbar ser par notes[i] (keys[i]'(hl ▸ hi)) = .ok () := by
  rw [C78_bar_to_abar_batch_iff]
  constructor
  · intro H i hi
    exact H i _ _ (List.getElem?_eq_getElem _) (List.getElem?_eq_getElem _)
  · intro H i note key e1 e2
    obtain ⟨hi, rfl⟩ := List.getElem?_eq_some_iff.mp e1
    obtain ⟨_, rfl⟩ := List.getElem?_eq_some_iff.mp e2
    exact H i hi

/-- C78 is violated: without keys any batch is accepted. -/
theorem C78_bar_to_abar_ignores (E : ConvExt S Q F Par Pf) (ser : BarToAbarBody S Q F Pf → Option Bytes) (par : Par)
    (notes : List (BarToAbarNote S Q F Pf)) : E.batchBarToAbar ser par notes [] = true := by
  rw [C78_bar_to_abar_batch_iff]
  intro i note key _ h
  simp at h

variable [DecidableEq F] [Fact P.r.Prime] [AddCommGroup G] [DecidableEq G] [Module (ZMod P.r) G]

theorem verifyAbarToBar_iff (E : ConvExt S Q F Par Pf) (X : FoldExt P F G Hs Mp) (par : Par)
    (note : AbarToBarNote S P Q F Pf G Mp) (root : F) (h : Hs) :
    E.verifyAbarToBar X par note root h = .ok () ↔
      bothPlain note.output = false ∧ root = note.root ∧ E.checkAbarToBar X par note root h = .ok () := by
  unfold ConvExt.verifyAbarToBar
  by_cases hr : root = note.root
  · rw [if_neg (by simpa using hr)]
    cases hb : bothPlain note.output <;> simp [hr]
  · rw [if_pos hr]
    simp [hr]

/-- C78, the exact meaning of the batch verifier for anonymous to confidential. -/
theorem C78_abar_to_bar_batch_iff (E : ConvExt S Q F Par Pf) (X : FoldExt P F G Hs Mp) (par : Par)
    (notes : List (AbarToBarNote S P Q F Pf G Mp)) (roots : List F) (hs : List Hs) :
    E.batchAbarToBar X par notes roots hs = true ↔
      (∀ note ∈ notes, note.output.amount.isConfidential = true ∨ note.output.assetType.isConfidential = true) ∧
      (∀ (i : Nat) root note, roots[i]? = some root → notes[i]? = some note → root = note.root) ∧
      ∀ (i : Nat) note root h, notes[i]? = some note → roots[i]? = some root → hs[i]? = some h →
        E.verifyAbarToBar X par note root h = .ok () := by
  have hconf : ∀ n : AbarToBarNote S P Q F Pf G Mp, bothPlain n.output = false ↔
      n.output.amount.isConfidential = true ∨ n.output.assetType.isConfidential = true := by
    intro n
    unfold bothPlain
    cases n.output.amount.isConfidential <;> cases n.output.assetType.isConfidential <;> simp
  unfold ConvExt.batchAbarToBar
  have hroot : ((roots.zip notes).any (fun (x, y) => x ≠ y.root) = false) ↔
      ∀ (i : Nat) root (note : AbarToBarNote S P Q F Pf G Mp), roots[i]? = some root → notes[i]? = some note →
        root = note.root := by
    rw [List.any_eq_false]
    constructor
    · intro h i root note h1 h2
      simpa using h (root, note) (List.mem_of_getElem? (i := i) (List.getElem?_zip_eq_some.mpr ⟨h1, h2⟩))
    · rintro h ⟨root, note⟩ hm
      obtain ⟨i, hi⟩ := List.getElem?_of_mem hm
      obtain ⟨h1, h2⟩ := List.getElem?_zip_eq_some.mp hi
      simpa using h i root note h1 h2
  by_cases hr : (roots.zip notes).any (fun (x, y) => x ≠ y.root) = true
  · rw [if_pos hr]
    simp only [Bool.false_eq_true, false_iff]
    rintro ⟨-, h, -⟩
    rw [hroot.mpr h] at hr
    simp at hr
  · rw [if_neg hr]
    have hr := hroot.mp (by simpa using hr)
    by_cases hc : notes.any (fun n => bothPlain n.output) = true
    · rw [if_pos hc]
      obtain ⟨n, hn, hn'⟩ := List.any_eq_true.mp hc
      simp only [Bool.false_eq_true, false_iff]
      rintro ⟨h, -⟩
      have := (hconf n).mpr (h n hn)
      rw [hn'] at this
      cases this
    · rw [if_neg hc, all_zip3]
      have hc : ∀ n ∈ notes, bothPlain n.output = false := by
        intro n hn
        have hc := Bool.eq_false_iff.mpr hc
        rw [List.any_eq_false] at hc
        simpa using hc n hn
      simp only [decide_eq_true_eq]
      constructor
      · intro H
        exact ⟨fun n hn => (hconf n).mp (hc n hn), hr, fun i note root h h1 h2 h3 =>
          (verifyAbarToBar_iff E X par note root h).mpr
            ⟨hc _ (List.mem_of_getElem? h1), hr i root note h2 h1, H i note root h h1 h2 h3⟩⟩
      · rintro ⟨-, -, H⟩ i note root h h1 h2 h3
        exact ((verifyAbarToBar_iff E X par note root h).mp (H i note root h h1 h2 h3)).2.2

/-- C78, anonymous to confidential, for lists of one length.  Missing: see `C78_abar_to_bar_ignores`. -/
theorem C78_abar_to_bar_batch_partial (E : ConvExt S Q F Par Pf) (X : FoldExt P F G Hs Mp) (par : Par)
    (notes : List (AbarToBarNote S P Q F Pf G Mp)) (roots : List F) (hs : List Hs) (h1 : roots.length = notes.length)
    (h2 : hs.length = notes.length) :
    E.batchAbarToBar X par notes roots hs = true ↔
      ∀ i (hi : i < notes.length), E.verifyAbarToBar X par notes[i] (roots[i]'(h1 ▸ hi)) (hs[i]'(h2 ▸ hi)) = .ok () := by
  have hconf : ∀ n : AbarToBarNote S P Q F Pf G Mp, bothPlain n.output = false ↔
      n.output.amount.isConfidential = true ∨ n.output.assetType.isConfidential = true := by
    intro n
    unfold bothPlain
    cases n.output.amount.isConfidential <;> cases n.output.assetType.isConfidential <;> simp
  rw [C78_abar_to_bar_batch_iff]
  constructor
  · rintro ⟨-, -, H⟩ i hi
    exact H i _ _ _ (List.getElem?_eq_getElem _) (List.getElem?_eq_getElem _) (List.getElem?_eq_getElem _)
  · intro H
    refine ⟨fun note hn => ?_, fun i root note e1 e2 => ?_, fun i note root h e1 e2 e3 => ?_⟩
    · obtain ⟨i, hi, rfl⟩ := List.getElem_of_mem hn
      exact (hconf _).mp ((verifyAbarToBar_iff E X par _ _ _).mp (H i hi)).1
    · obtain ⟨hi, rfl⟩ := List.getElem?_eq_some_iff.mp e2
      obtain ⟨_, rfl⟩ := List.getElem?_eq_some_iff.mp e1
      exact ((verifyAbarToBar_iff E X par _ _ _).mp (H i hi)).2.1
    · obtain ⟨hi, rfl⟩ := List.getElem?_eq_some_iff.mp e1
      obtain ⟨_, rfl⟩ := List.getElem?_eq_some_iff.mp e2
      obtain ⟨_, rfl⟩ := List.getElem?_eq_some_iff.mp e3
      exact H i hi

/-- C78 is violated: without hashes (or without roots) a batch of confidential outputs is accepted whatever its proofs are. -/
theorem C78_abar_to_bar_ignores (E : ConvExt S Q F Par Pf) (X : FoldExt P F G Hs Mp) (par : Par)
    (notes : List (AbarToBarNote S P Q F Pf G Mp))
    (hn : ∀ note ∈ notes, note.output.amount.isConfidential = true ∨ note.output.assetType.isConfidential = true) :
    E.batchAbarToBar X par notes (notes.map (·.root)) [] = true ∧ ∀ hs, E.batchAbarToBar X par notes [] hs = true := by
  refine ⟨(C78_abar_to_bar_batch_iff ..).mpr ⟨hn, ?_, ?_⟩, fun hs => (C78_abar_to_bar_batch_iff ..).mpr ⟨hn, ?_, ?_⟩⟩
  · intro i root note h1 h2
    rw [List.getElem?_map, h2] at h1
    simpa using h1.symm
  · intro i note root h _ _ h3
    simp at h3
  · intro i root note h1
    simp at h1
  · intro i note root h _ h2
    simp at h2

end

/-! ### C79 -/

/-- a delegated Schnorr proof of the expected shape -/
def SchnorrShape {P : SimFr.Params} {F G : Type} (n : Nat) (p : DelegatedSchnorr.Proof (ZMod P.r) G F) : Prop :=
  p.randomizers.length = n ∧ p.responses.length = n

/-- C79, transparent to anonymous: verification always returns. -/
theorem C79_ar_to_abar_returns (E : ConvExt S Q F Par Pf) (ser : ArToAbarBody S F Pf → Option Bytes) (par : Par)
    (note : ArToAbarNote S F Pf) : E.verifyArToAbar ser par note ≠ .panic := by
  unfold ConvExt.verifyArToAbar ConvExt.verifyArToAbarBody
  cases ser note.body with
  | none => simp
  | some m =>
    simp only [Res.ofOption_some, Res.bind_ok]
    repeat' split
    all_goals simp

section
variable [Fact P.r.Prime] [AddCommGroup G] [DecidableEq G] [Module (ZMod P.r) G]

/-- the exact condition under which the folding verifier panics -/
theorem fold_panic_iff (X : FoldExt P F G Hs Mp) (label : String) (h : Hs) (inst : FoldInst P F G Mp) :
    X.verify label h inst = .panic ↔ inst.coms.length < 3 ∨
      ((X.scalarMul label h inst.coms inst.mul).isSome ∧ ¬ SchnorrShape inst.coms.length inst.schnorr) := by
  unfold FoldExt.verify
  by_cases h3 : inst.coms.length < 3
  · simp [h3]
  · rw [if_neg h3]
    cases hs : X.scalarMul label h inst.coms inst.mul with
    | none => simp [h3]
    | some tr =>
      simp only [Res.ofOption_some, Res.bind_ok, Option.isSome_some, true_and, h3, false_or]
      by_cases hl : SchnorrShape inst.coms.length inst.schnorr
      · obtain ⟨h1, h2⟩ := DelegatedSchnorr.C65_accepts_iff X.gens X.oracle tr inst.coms inst.schnorr ⟨hl.1.symm, hl.2.symm⟩
        simp only [hl, not_true_eq_false, iff_false]
        by_cases he : DelegatedSchnorr.Equations X.gens (X.oracle (DelegatedSchnorr.point1 X.gens tr inst.coms
            inst.schnorr.comm inst.schnorr.randomizers)) inst.coms inst.schnorr.randomizers inst.schnorr.responses
        · rw [h1 he]; simp
        · rw [h2 he]; simp
      · rw [DelegatedSchnorr.C65_lengths_panic]
        · simp [hl]
        · unfold SchnorrShape at hl
          by_contra hcon
          push Not at hcon
          exact hl ⟨hcon.1.symm, hcon.2.symm⟩

theorem fold_ok {X : FoldExt P F G Hs Mp} {label : String} {h : Hs} {inst : FoldInst P F G Mp} {c : ZMod P.r × ZMod P.r}
    (hv : X.verify label h inst = .ok c) : 3 ≤ inst.coms.length ∧ ∃ tr out, X.scalarMul label h inst.coms inst.mul = some tr ∧
      DelegatedSchnorr.verify X.gens X.oracle tr inst.coms inst.schnorr = .ok out ∧ c = (out.1, out.2.1) ∧
      SchnorrShape inst.coms.length inst.schnorr := by
  unfold FoldExt.verify at hv
  by_cases h3 : inst.coms.length < 3
  · rw [if_pos h3] at hv
    cases hv
  · rw [if_neg h3] at hv
    obtain ⟨tr, h1, hv⟩ := Res.bind_eq_ok.mp hv
    obtain ⟨out, h2, hv⟩ := Res.bind_eq_ok.mp hv
    refine ⟨by omega, tr, out, ?_, h2, (Res.ok.inj hv).symm, ?_⟩
    · cases hs : X.scalarMul label h inst.coms inst.mul with
      | none => rw [hs] at h1; cases h1
      | some t => rw [hs] at h1; rw [Res.ofOption_some] at h1; rw [Res.ok.inj h1]
    · by_contra hl
      rw [DelegatedSchnorr.C65_lengths_panic] at h2
      · cases h2
      · unfold SchnorrShape at hl
        by_contra hcon
        push Not at hcon
        exact hl ⟨hcon.1.symm, hcon.2.symm⟩

omit [Fact P.r.Prime] [AddCommGroup G] [DecidableEq G] [Module (ZMod P.r) G] in
theorem fold_input_ok (inst : FoldInst P F G Mp) (h : 3 ≤ inst.schnorr.responses.length) (c : ZMod P.r × ZMod P.r) :
    ∃ l, inst.input c = .ok l ∧ verifierInput P inst.schnorr.comm c.1 c.2 (inst.schnorr.responses.map (·.1)) = some l := by
  match hr : inst.schnorr.responses, h with
  | a :: b :: d :: rest, _ =>
    obtain ⟨l, hl⟩ : ∃ l : List F, verifierInput P inst.schnorr.comm c.1 c.2 (inst.schnorr.responses.map (·.1)) = some l := by
      unfold verifierInput combinedResponse
      rw [hr]
      exact ⟨_, rfl⟩
    exact ⟨l, by unfold FoldInst.input; rw [hl]; rfl, by rw [← hr]; exact hl⟩

/-- C79, anonymous to transparent: the exact condition under which verification panics instead of returning.  Every note that
is not meant to be accepted for other reasons can be made to panic: a note with fewer than three commitments always does. -/
theorem C79_abar_to_ar_panics_iff [DecidableEq F] (E : ConvExt S Q F Par Pf) (X : FoldExt P F G Hs Mp) (par : Par)
    (note : AbarToArNote S P F Pf G Mp) (root : F) (h : Hs) :
    E.verifyAbarToAr X par note root h = .panic ↔
      (note.output.amount.isConfidential = false ∧ note.output.assetType.isConfidential = false) ∧
      (note.folding.coms.length < 3 ∨ ((X.scalarMul abarToArFoldLabel h note.folding.coms note.folding.mul).isSome ∧
        ¬ SchnorrShape note.folding.coms.length note.folding.schnorr)) := by
  rw [← fold_panic_iff]
  unfold ConvExt.verifyAbarToAr
  cases ha : note.output.amount <;> cases ht : note.output.assetType <;>
    simp only [Xfr.XfrAmount.isConfidential, Xfr.XfrAssetType.isConfidential, Bool.true_eq_false, false_and, and_false,
      reduceCtorEq, true_and]
  cases hv : X.verify abarToArFoldLabel h note.folding with
  | err => simp
  | panic => simp
  | ok c =>
    obtain ⟨h3, _, _, _, _, _, hl⟩ := fold_ok hv
    obtain ⟨l, hi, -⟩ := fold_input_ok note.folding (by rw [hl.2]; exact h3) c
    rw [Res.bind_ok, hi, Res.bind_ok]
    repeat' split
    all_goals simp

end

section
variable [Fact Q.r.Prime] [AddCommGroup S.G] [DecidableEq S.G] [Module (ZMod Q.r) S.G]

theorem recordComs_returns (E : ConvExt S Q F Par Pf) (r : BlindAssetRecord S) : E.recordComs r ≠ .panic := by
  have ho : ∀ {α : Type} (o : Option α), Res.ofOption o = .panic → False := by
    intro α o h
    cases o <;> cases h
  unfold ConvExt.recordComs
  cases hc : E.amountComs r with
  | panic =>
    unfold ConvExt.amountComs at hc
    split at hc
    · rename_i lo hi _
      cases h1 : Res.ofOption (E.decompress lo) with
      | panic => exact (ho _ h1).elim
      | err => rw [h1] at hc; cases hc
      | ok a =>
        cases h2 : Res.ofOption (E.decompress hi) with
        | panic => exact (ho _ h2).elim
        | err => rw [h1, h2] at hc; cases hc
        | ok b => rw [h1, h2] at hc; cases hc
    · cases hc
  | err => simp
  | ok c =>
    rw [Res.bind_ok]
    cases ht : E.typeCom r with
    | panic =>
      unfold ConvExt.typeCom at ht
      split at ht
      · exact (ho _ ht).elim
      · cases ht
    | err => simp
    | ok t => simp

omit [Fact Q.r.Prime] [AddCommGroup S.G] [DecidableEq S.G] [Module (ZMod Q.r) S.G] in
theorem inspect_ok {p : DelegatedSchnorr.Proof (ZMod Q.r) S.G F} (h : SchnorrShape 2 p) (a b : ZMod Q.r) :
    ∃ l, inspectInput Q p.comm a b (p.responses.map (·.1)) = some l := by
  match hr : p.responses, h.2 with
  | [x, y], _ => exact ⟨_, rfl⟩

theorem schnorr_shape {g : ChaumPedersen.Gens S.G} {H : Tr (ZMod Q.r) S.G F → ZMod Q.r} {tr : Tr (ZMod Q.r) S.G F} {a b : S.G}
    {p : DelegatedSchnorr.Proof (ZMod Q.r) S.G F} :
    (SchnorrShape 2 p → DelegatedSchnorr.verify g H tr [a, b] p ≠ .panic) ∧
    (¬ SchnorrShape 2 p → DelegatedSchnorr.verify g H tr [a, b] p = .panic) := by
  constructor
  · intro hs
    obtain ⟨h1, h2⟩ := DelegatedSchnorr.C65_accepts_iff g H tr [a, b] p ⟨hs.1.symm, hs.2.symm⟩
    by_cases he : DelegatedSchnorr.Equations g (H (DelegatedSchnorr.point1 g tr [a, b] p.comm p.randomizers)) [a, b]
        p.randomizers p.responses
    · rw [h1 he]; simp
    · rw [h2 he]; simp
  · intro hs
    refine DelegatedSchnorr.C65_lengths_panic g H tr _ _ ?_
    by_contra hcon
    push Not at hcon
    exact hs ⟨hcon.1.symm, hcon.2.symm⟩

/-- C79, confidential to anonymous: the exact condition under which verification panics: the record is readable and the
delegated Schnorr proof does not have two randomizers and two responses. -/
theorem C79_bar_to_abar_panics_iff (E : ConvExt S Q F Par Pf) (ser : BarToAbarBody S Q F Pf → Option Bytes) (par : Par)
    (note : BarToAbarNote S Q F Pf) (key : S.PK) :
    E.verifyBarToAbar ser par note key = .panic ↔
      bothPlain note.body.input = false ∧ (∃ c, E.recordComs note.body.input = .ok c) ∧
        ¬ SchnorrShape 2 note.body.schnorr := by
  unfold ConvExt.verifyBarToAbar ConvExt.verifyBarToAbarBody
  cases hb : bothPlain note.body.input with
  | true => simp
  | false =>
    simp only [Bool.false_eq_true, if_false, true_and]
    cases hc : E.recordComs note.body.input with
    | err => simp
    | panic => exact absurd hc (recordComs_returns E _)
    | ok c =>
      simp only [Res.bind_ok, Res.ok.injEq, exists_eq', true_and]
      by_cases hs : SchnorrShape 2 note.body.schnorr
      · simp only [hs, not_true_eq_false, iff_false]
        cases hv : DelegatedSchnorr.verify E.gens E.oracle [.label barToAbarLabel, .bound note.body.output] [c.1, c.2]
            note.body.schnorr with
        | err => simp
        | panic => exact absurd hv (schnorr_shape.1 hs)
        | ok out =>
          obtain ⟨l, hl⟩ := inspect_ok hs out.1 out.2.1
          simp only [Res.bind_ok, hl, Res.unwrap_some]
          cases ser note.body <;> (repeat' split) <;> (try simp) <;> (repeat' split) <;> simp
      · rw [schnorr_shape.2 hs]
        simp [hs]

variable [DecidableEq F] [Fact P.r.Prime] [AddCommGroup G] [DecidableEq G] [Module (ZMod P.r) G]

/-- C79, anonymous to confidential: when both delegated Schnorr proofs have the shape the verifier expects, verification
returns.  Missing: the other notes, see `C79_abar_to_bar_panics`. -/
theorem C79_abar_to_bar_returns_partial (E : ConvExt S Q F Par Pf) (X : FoldExt P F G Hs Mp) (par : Par)
    (note : AbarToBarNote S P Q F Pf G Mp) (root : F) (h : Hs) (h2 : SchnorrShape 2 note.schnorr)
    (h3 : 3 ≤ note.folding.coms.length) (hl : SchnorrShape note.folding.coms.length note.folding.schnorr) :
    E.verifyAbarToBar X par note root h ≠ .panic := by
  unfold ConvExt.verifyAbarToBar ConvExt.checkAbarToBar
  split
  · simp
  split
  · simp
  cases hc : E.recordComs note.output with
  | err => simp
  | panic => exact absurd hc (recordComs_returns E _)
  | ok c =>
    rw [Res.bind_ok]
    cases hv : DelegatedSchnorr.verify E.gens E.oracle [.label abarToBarLabel, .bound note.input] [c.1, c.2] note.schnorr with
    | err => simp
    | panic => exact absurd hv (schnorr_shape.1 h2)
    | ok out =>
      rw [Res.bind_ok]
      cases hf : X.verify abarToBarFoldLabel h note.folding with
      | err => simp
      | panic =>
        rcases (fold_panic_iff ..).mp hf with h | ⟨-, h⟩
        · omega
        · exact absurd hl h
      | ok ch =>
        obtain ⟨l, hi, -⟩ := fold_input_ok note.folding (by rw [hl.2]; exact h3) ch
        obtain ⟨k, hk⟩ := inspect_ok h2 out.1 out.2.1
        simp only [Res.bind_ok, hi, hk, Res.unwrap_some]
        split <;> simp

/-- C79 is violated: a note with a readable confidential output and the right root makes the verifier panic when the delegated
Schnorr proof over Ristretto does not have two randomizers and two responses. -/
theorem C79_abar_to_bar_panics (E : ConvExt S Q F Par Pf) (X : FoldExt P F G Hs Mp) (par : Par)
    (note : AbarToBarNote S P Q F Pf G Mp) (h : Hs) (hb : bothPlain note.output = false) (c : S.G × S.G)
    (hc : E.recordComs note.output = .ok c) (hs : ¬ SchnorrShape 2 note.schnorr) :
    E.verifyAbarToBar X par note note.root h = .panic := by
  unfold ConvExt.verifyAbarToBar ConvExt.checkAbarToBar
  rw [if_neg (by simp), hb, if_neg (by simp), hc, Res.bind_ok, schnorr_shape.2 hs]
  rfl

/-! ### C81 -/

omit [DecidableEq F] [Fact P.r.Prime] [AddCommGroup G] [DecidableEq G] [Module (ZMod P.r) G] [Fact Q.r.Prime]
  [AddCommGroup S.G] [DecidableEq S.G] [Module (ZMod Q.r) S.G] in
/-- C81, transparent to anonymous: an accepted note carries a signature of the owner of the converted record over the whole
body. -/
theorem C81_ar_to_abar_signed (E : ConvExt S Q F Par Pf) (ser : ArToAbarBody S F Pf → Option Bytes) (par : Par)
    (note : ArToAbarNote S F Pf) (h : E.verifyArToAbar ser par note = .ok ()) :
    ∃ msg, ser note.body = some msg ∧ E.sigVerify note.body.input.publicKey msg note.signature = true := by
  unfold ConvExt.verifyArToAbar at h
  obtain ⟨m, h1, h⟩ := Res.bind_eq_ok.mp h
  cases hs : ser note.body with
  | none => rw [hs] at h1; cases h1
  | some m' =>
    rw [hs, Res.ofOption_some] at h1
    obtain rfl := Res.ok.inj h1
    refine ⟨_, rfl, ?_⟩
    split at h
    · assumption
    · cases h

omit [DecidableEq F] [Fact P.r.Prime] [AddCommGroup G] [DecidableEq G] [Module (ZMod P.r) G] in
/-- C81, confidential to anonymous, in part: an accepted note carries a signature over the whole body of the key that the
caller passes.  Missing: that this is the key of the converted record, see `C81_bar_to_abar_other_key`. -/
theorem C81_bar_to_abar_signed_partial (E : ConvExt S Q F Par Pf) (ser : BarToAbarBody S Q F Pf → Option Bytes) (par : Par)
    (note : BarToAbarNote S Q F Pf) (key : S.PK) (h : E.verifyBarToAbar ser par note key = .ok ()) :
    ∃ msg, ser note.body = some msg ∧ E.sigVerify key msg note.signature = true := by
  unfold ConvExt.verifyBarToAbar at h
  obtain ⟨_, -, h⟩ := Res.bind_eq_ok.mp h
  obtain ⟨m, h1, h⟩ := Res.bind_eq_ok.mp h
  cases hs : ser note.body with
  | none => rw [hs] at h1; cases h1
  | some m' =>
    rw [hs, Res.ofOption_some] at h1
    obtain rfl := Res.ok.inj h1
    refine ⟨_, rfl, ?_⟩
    split at h
    · assumption
    · cases h

omit [DecidableEq F] [Fact P.r.Prime] [AddCommGroup G] [DecidableEq G] [Module (ZMod P.r) G] in
/-- C81 is violated by the verifier alone: whoever can make the proof of a conversion can sign it with a key of their own.  The
verifier does not compare the key it is given with the one in the record. -/
theorem C81_bar_to_abar_other_key (E : ConvExt S Q F Par Pf) (ser : BarToAbarBody S Q F Pf → Option Bytes) (par : Par)
    (body : BarToAbarBody S Q F Pf) (msg : Bytes) (hm : ser body = some msg)
    (hb : E.verifyBarToAbarBody par body.input body.output body.schnorr body.proof = .ok ())
    (other : S.PK) (sig : S.Sg) (hs : E.sigVerify other msg sig = true) :
    E.verifyBarToAbar ser par ⟨body, sig⟩ other = .ok () := by
  unfold ConvExt.verifyBarToAbar
  simp [hb, hm, hs]

end

end

end Verif.Anon
