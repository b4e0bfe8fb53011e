import Mathlib.Data.Int.Basic
import Mathlib.Algebra.BigOperators.Group.List.Basic
import Mathlib.Tactic.Linarith
import Mathlib.Tactic.Ring

/-!
Property C52: the balance check made before an anonymous transfer is built.
Property C63: verification of anonymous transfer notes, one by one and in a batch.
-/

namespace Verif.Anon

/-! ### C52: `check_asset_amount` -/

/-- The part of an `OpenAnonAssetRecord` that the balance check reads (api/src/anon_xfr/structs.rs l.82-89). -/
structure Held (AT : Type) where
  ty : AT
  amount : Nat
  deriving DecidableEq

section Balance

variable {AT : Type} [DecidableEq AT]

/-- `if let Some(x) = balances.get_mut(&t) { *x += d } else { balances.insert(t, d) }` (api/src/anon_xfr/mod.rs l.76-90).
The `HashMap` is an association list with one entry per key; `i128` is `Int`: the sums of fewer than 2^63 64-bit amounts do
not leave the range of `i128`. -/
def bump (m : List (AT × Int)) (t : AT) (d : Int) : List (AT × Int) :=
  match m with
  | [] => [(t, d)]
  | (t', x) :: m => if t' = t then (t', x + d) :: m else (t', x) :: bump m t d

/-- the two loops over inputs and outputs (l.76-90) -/
def balances (ins outs : List (Held AT)) : List (AT × Int) :=
  outs.foldl (fun m r => bump m r.ty (-(r.amount : Int)))
    (ins.foldl (fun m r => bump m r.ty (r.amount : Int)) [])

/-- `check_asset_amount` (l.68-105); `feeType` is the constant `FEE_TYPE` (l.46) -/
def checkAmounts (feeType : AT) (ins outs : List (Held AT)) (fee : Nat) : Bool :=
  (balances ins outs).all fun (t, s) => if t ≠ feeType then s == 0 else s == (fee : Int)

namespace Spec

/-- the number of units of type `t` held by a list of records -/
def heldTotal (t : AT) (rs : List (Held AT)) : Nat := ((rs.filter (fun r => r.ty = t)).map (·.amount)).sum

end Spec

open Spec

/-- the entry of a type, zero when there is none -/
def entry (m : List (AT × Int)) (t : AT) : Int := ((m.filter (fun e => e.1 = t)).map (·.2)).sum

/-- keys are unique -/
def Keys (m : List (AT × Int)) : Prop := (m.map (·.1)).Nodup

theorem mem_bump (m : List (AT × Int)) (t u : AT) (d : Int) :
    u ∈ (bump m t d).map (·.1) ↔ u = t ∨ u ∈ m.map (·.1) := by
  induction m with
  | nil => simp [bump]
  | cons e m ih =>
    obtain ⟨t', x⟩ := e
    unfold bump
    split
    · rename_i h
      subst h
      simp
    · simp only [List.map_cons, List.mem_cons, ih]
      tauto

theorem keys_bump (m : List (AT × Int)) (t : AT) (d : Int) (h : Keys m) : Keys (bump m t d) := by
  unfold Keys at *
  induction m with
  | nil => simp [bump]
  | cons e m ih =>
    obtain ⟨t', x⟩ := e
    simp only [List.map_cons, List.nodup_cons] at h
    unfold bump
    split
    · simpa using h
    · rename_i hne
      simp only [List.map_cons, List.nodup_cons, mem_bump]
      refine ⟨?_, ih h.2⟩
      rintro (h' | h')
      · exact hne h'
      · exact h.1 h'

theorem entry_bump (m : List (AT × Int)) (t u : AT) (d : Int) :
    entry (bump m t d) u = entry m u + if u = t then d else 0 := by
  induction m with
  | nil =>
    by_cases h : t = u
    · simp [bump, entry, h]
    · simp [bump, entry, h, Ne.symm h]
  | cons e m ih =>
    obtain ⟨t', x⟩ := e
    unfold bump
    split
    · rename_i h
      subst h
      by_cases hu : t' = u
      · subst hu
        simp [entry]
        ring
      · simp [entry, hu, Ne.symm hu]
    · unfold entry at ih ⊢
      by_cases hu : t' = u
      · subst hu
        simp only [List.filter_cons, decide_true, if_true, List.map_cons, List.sum_cons, ih]
        ring
      · simp only [List.filter_cons, hu, decide_false]
        simpa using ih

theorem foldl_bump (σ : Int) (rs : List (Held AT)) (m : List (AT × Int)) (hk : Keys m) :
    let m' := rs.foldl (fun m r => bump m r.ty (σ * (r.amount : Int))) m
    Keys m' ∧ (∀ u, entry m' u = entry m u + σ * heldTotal u rs) ∧
      ∀ u, u ∈ m'.map (·.1) ↔ u ∈ m.map (·.1) ∨ u ∈ rs.map (·.ty) := by
  induction rs generalizing m with
  | nil => simpa [heldTotal] using hk
  | cons r rs ih =>
    obtain ⟨h1, h2, h3⟩ := ih (bump m r.ty (σ * r.amount)) (keys_bump _ _ _ hk)
    refine ⟨h1, fun u => ?_, fun u => ?_⟩
    · rw [List.foldl_cons, h2, entry_bump]
      unfold heldTotal
      by_cases hu : r.ty = u
      · subst hu
        simp
        ring
      · simp [hu, Ne.symm hu]
    · rw [List.foldl_cons, h3, mem_bump, List.map_cons, List.mem_cons]
      tauto

/-- what the map holds after both loops -/
theorem balances_spec (ins outs : List (Held AT)) :
    Keys (balances ins outs) ∧
    (∀ u, entry (balances ins outs) u = (heldTotal u ins : Int) - heldTotal u outs) ∧
    ∀ u, u ∈ (balances ins outs).map (·.1) ↔ u ∈ ins.map (·.ty) ∨ u ∈ outs.map (·.ty) := by
  have hin := foldl_bump (AT := AT) 1 ins [] (by simp [Keys])
  simp only [one_mul] at hin
  obtain ⟨h1, h2, h3⟩ := hin
  have hout := foldl_bump (-1) outs _ h1
  simp only [neg_mul, one_mul] at hout
  obtain ⟨g1, g2, g3⟩ := hout
  refine ⟨g1, fun u => ?_, fun u => ?_⟩
  · unfold balances
    rw [g2, h2]
    simp [entry]
    ring
  · unfold balances
    rw [g3, h3]
    simp

theorem entry_of_mem (m : List (AT × Int)) (hk : Keys m) (e : AT × Int) (he : e ∈ m) : entry m e.1 = e.2 := by
  induction m with
  | nil => simp at he
  | cons a m ih =>
    unfold Keys at hk
    simp only [List.map_cons, List.nodup_cons] at hk
    rcases List.mem_cons.mp he with rfl | he
    · have : m.filter (fun x => x.1 = e.1) = [] := by
        rw [List.filter_eq_nil_iff]
        intro x hx h
        exact hk.1 (List.mem_map.mpr ⟨x, hx, by simpa using h⟩)
      simp [entry, this]
    · have : a.1 ≠ e.1 := fun h => hk.1 (h ▸ List.mem_map.mpr ⟨e, he, rfl⟩)
      have ih := ih hk.2 he
      unfold entry at ih ⊢
      simpa [List.filter_cons, this] using ih

/-- C52, the exact meaning of the check: it looks at the types that occur among the records, and only at those. -/
theorem C52_accepts_iff (feeType : AT) (ins outs : List (Held AT)) (fee : Nat) :
    checkAmounts feeType ins outs fee = true ↔
      ∀ t, (t ∈ ins.map (·.ty) ∨ t ∈ outs.map (·.ty)) →
        heldTotal t ins = heldTotal t outs + if t = feeType then fee else 0 := by
  obtain ⟨hk, he, hm⟩ := balances_spec ins outs
  unfold checkAmounts
  rw [List.all_eq_true]
  constructor
  · intro h t ht
    obtain ⟨e, hem, rfl⟩ := List.mem_map.mp ((hm t).mpr ht)
    have h' := h e hem
    have := entry_of_mem _ hk e hem
    rw [he] at this
    by_cases hf : e.1 = feeType
    · simp only [hf, ne_eq, not_true_eq_false, if_false, beq_iff_eq] at h' this
      rw [if_pos hf, hf]
      omega
    · simp only [hf, ne_eq, not_false_eq_true, if_true, beq_iff_eq] at h'
      rw [if_neg hf]
      omega
  · intro h e hem
    have h' := h e.1 ((hm e.1).mp (List.mem_map.mpr ⟨e, hem, rfl⟩))
    have := entry_of_mem _ hk e hem
    rw [he] at this
    by_cases hf : e.1 = feeType
    · rw [if_pos hf] at h'
      simp only [hf, ne_eq, not_true_eq_false, if_false, beq_iff_eq]
      omega
    · rw [if_neg hf] at h'
      simp only [hf, ne_eq, not_false_eq_true, if_true, beq_iff_eq]
      omega

omit [DecidableEq AT] in
theorem heldTotal_of_not_mem [DecidableEq AT] (t : AT) (rs : List (Held AT)) (h : t ∉ rs.map (·.ty)) :
    heldTotal t rs = 0 := by
  unfold heldTotal
  have : rs.filter (fun r => r.ty = t) = [] := by
    rw [List.filter_eq_nil_iff]
    intro r hr e
    exact h (List.mem_map.mpr ⟨r, hr, by simpa using e⟩)
  simp [this]

/-- C52 in full, provided the fee is paid at all: when a record of the fee type occurs (or there is no fee), the check
accepts exactly the balanced transfers: every type keeps its total, the fee type loses the fee.  Missing: a transfer without
any record of the fee type, see `C52_fee_skipped`. -/
theorem C52_balance_partial (feeType : AT) (ins outs : List (Held AT)) (fee : Nat)
    (hfee : fee = 0 ∨ feeType ∈ ins.map (·.ty) ∨ feeType ∈ outs.map (·.ty)) :
    checkAmounts feeType ins outs fee = true ↔
      ∀ t, heldTotal t ins = heldTotal t outs + if t = feeType then fee else 0 := by
  rw [C52_accepts_iff]
  constructor
  · intro h t
    by_cases ht : t ∈ ins.map (·.ty) ∨ t ∈ outs.map (·.ty)
    · exact h t ht
    · push Not at ht
      rw [heldTotal_of_not_mem t ins ht.1, heldTotal_of_not_mem t outs ht.2]
      split
      · rename_i hf
        subst hf
        rcases hfee with h0 | h0 | h0
        · omega
        · exact absurd h0 ht.1
        · exact absurd h0 ht.2
      · rfl
  · exact fun h t _ => h t

example : (2 : Nat) ∈ ([⟨1, 5⟩, ⟨2, 10⟩] : List (Held Nat)).map (·.ty) ∧
    checkAmounts 2 [⟨1, 5⟩, ⟨2, 10⟩] [⟨1, 3⟩, ⟨2, 7⟩, ⟨1, 2⟩] 3 = true ∧
    checkAmounts 2 [⟨1, 5⟩, ⟨2, 10⟩] [⟨1, 3⟩, ⟨2, 7⟩, ⟨1, 2⟩] 4 = false ∧
    checkAmounts 2 [⟨1, 5⟩, ⟨2, 10⟩] [⟨1, 3⟩, ⟨2, 7⟩, ⟨1, 1⟩] 3 = false := by decide

/-- C52 is violated: a transfer that involves no record of the fee type passes the check for every fee, although the fee
type does not lose the fee. -/
theorem C52_fee_skipped (feeType t : AT) (ht : t ≠ feeType) (a fee : Nat) (hfee : fee ≠ 0) :
    checkAmounts feeType [⟨t, a⟩] [⟨t, a⟩] fee = true ∧
    heldTotal feeType [(⟨t, a⟩ : Held AT)] ≠ heldTotal feeType [(⟨t, a⟩ : Held AT)] + fee := by
  refine ⟨(C52_accepts_iff _ _ _ _).mpr ?_, by omega⟩
  intro u hu
  simp only [List.map_cons, List.map_nil, List.mem_singleton, or_self] at hu
  subst hu
  simp [ht]

example : (1 : Nat) ≠ 0 ∧ checkAmounts 0 [⟨1, 9⟩] [⟨1, 9⟩] 1000 = true := by decide

end Balance

/-! ### C63: verification of notes -/

section Notes

/-- An `AXfrNote` (api/src/anon_xfr/abar_to_abar.rs l.36-76): nullifiers, output commitments (of the output records), root,
fee, proof and folding instance.  Root version and owner memos are not read by the verifier. -/
structure Note (F Pf Inst : Type) where
  nullifiers : List F
  commitments : List F
  root : F
  fee : Nat
  proof : Pf
  folding : Inst

/-- The proof systems behind the verifier: `verify_address_folding` (address_folding.rs l.150-174), which also returns the
challenges, `prepare_verifier_input` (l.584-620) and `verify_xfr` (abar_to_abar.rs l.331-357).  `Hs` is the hash passed in. -/
structure NoteExt (F Pf Inst Par Hs Ch : Type) where
  verifyFolding : Hs → Inst → Option Ch
  folded : Inst → Ch → List F
  verifyXfr : Par → List F × List F × F × Nat → Pf → List F → Bool

variable {F Pf Inst Par Hs Ch : Type} [DecidableEq F] (E : NoteExt F Pf Inst Par Hs Ch)

/-- the body of the closure in `batch_verify_anon_xfr_note` (l.259-290); the same lines as l.204-235 of
`verify_anon_xfr_note` -/
def NoteExt.checkNote (par : Par) (note : Note F Pf Inst) (root : F) (h : Hs) : Bool :=
  match E.verifyFolding h note.folding with
  | none => false
  | some ch =>
    E.verifyXfr par (note.nullifiers, note.commitments, root, note.fee) note.proof (E.folded note.folding ch)

/-- `verify_anon_xfr_note` (l.195-235) -/
def NoteExt.verifyNote (par : Par) (note : Note F Pf Inst) (root : F) (h : Hs) : Bool :=
  if root ≠ note.root then false else E.checkNote par note root h

/-- `batch_verify_anon_xfr_note` (l.240-298) -/
def NoteExt.batchVerifyNotes (pars : List Par) (notes : List (Note F Pf Inst)) (roots : List F) (hs : List Hs) : Bool :=
  if (roots.zip notes).any (fun (x, y) => x ≠ y.root) then false
  else (((pars.zip notes).zip roots).zip hs).all (fun (((par, note), root), h) => E.checkNote par note root h)

/-- The exact meaning of the batch verifier: roots are compared at the positions that have a note and a root, and the notes
are verified at the positions that exist in all four lists.  Everything beyond the shortest list is ignored. -/
theorem C63_batch_iff (pars : List Par) (notes : List (Note F Pf Inst)) (roots : List F) (hs : List Hs) :
    E.batchVerifyNotes pars notes roots hs = true ↔
      (∀ (i : Nat) root (note : Note F Pf Inst), roots[i]? = some root → notes[i]? = some note → root = note.root) ∧
      ∀ (i : Nat) par note root h, pars[i]? = some par → notes[i]? = some note → roots[i]? = some root → hs[i]? = some h →
        E.verifyNote par note root h = true := by
  have hany : (roots.zip notes).any (fun (x, y) => x ≠ y.root) = false ↔
      ∀ (i : Nat) root (note : Note F Pf Inst), roots[i]? = some root → notes[i]? = some note → root = note.root := by
    rw [List.any_eq_false]
    constructor
    · intro h i root note h1 h2
      have : (root, note) ∈ roots.zip notes :=
        List.mem_of_getElem? (i := i) (List.getElem?_zip_eq_some.mpr ⟨h1, h2⟩)
      simpa using h _ this
    · rintro h ⟨root, note⟩ hm
      obtain ⟨i, hi⟩ := List.getElem?_of_mem hm
      obtain ⟨h1, h2⟩ := List.getElem?_zip_eq_some.mp hi
      simpa using h i root note h1 h2
  have hall : (((pars.zip notes).zip roots).zip hs).all
      (fun (((par, note), root), h) => E.checkNote par note root h) = true ↔
      ∀ (i : Nat) par note root h, pars[i]? = some par → notes[i]? = some note → roots[i]? = some root → hs[i]? = some h →
        E.checkNote par note root h = true := by
    rw [List.all_eq_true]
    constructor
    · intro H i par note root h h1 h2 h3 h4
      have : (((par, note), root), h) ∈ ((pars.zip notes).zip roots).zip hs :=
        List.mem_of_getElem? (i := i) (List.getElem?_zip_eq_some.mpr
          ⟨List.getElem?_zip_eq_some.mpr ⟨List.getElem?_zip_eq_some.mpr ⟨h1, h2⟩, h3⟩, h4⟩)
      exact H _ this
    · rintro H ⟨⟨⟨par, note⟩, root⟩, h⟩ hm
      obtain ⟨i, hi⟩ := List.getElem?_of_mem hm
      obtain ⟨h1, h4⟩ := List.getElem?_zip_eq_some.mp hi
      obtain ⟨h1, h3⟩ := List.getElem?_zip_eq_some.mp h1
      obtain ⟨h1, h2⟩ := List.getElem?_zip_eq_some.mp h1
      exact H i par note root h h1 h2 h3 h4
  unfold NoteExt.batchVerifyNotes
  by_cases ha : (roots.zip notes).any (fun (x, y) => x ≠ y.root) = true
  · rw [if_pos ha]
    simp only [Bool.false_eq_true, false_iff, not_and]
    intro h
    rw [hany.mpr h] at ha
    simp at ha
  · rw [if_neg ha, hall]
    have hr := hany.mp (by simpa using ha)
    constructor
    · intro H
      refine ⟨hr, fun i par note root h h1 h2 h3 h4 => ?_⟩
      unfold NoteExt.verifyNote
      rw [if_neg (by simpa using hr i root note h3 h2)]
      exact H i par note root h h1 h2 h3 h4
    · rintro ⟨-, H⟩ i par note root h h1 h2 h3 h4
      have := H i par note root h h1 h2 h3 h4
      unfold NoteExt.verifyNote at this
      rwa [if_neg (by simpa using hr i root note h3 h2)] at this

/-- C63 for lists of one length: the batch verifier accepts iff every note verifies by itself.  Missing: lists of different
lengths, see `C63_batch_ignores_notes`. -/
theorem C63_batch_covers_partial (pars : List Par) (notes : List (Note F Pf Inst)) (roots : List F) (hs : List Hs)
    (h1 : pars.length = notes.length) (h2 : roots.length = notes.length) (h3 : hs.length = notes.length) :
    E.batchVerifyNotes pars notes roots hs = true ↔
      ∀ i (hi : i < notes.length), E.verifyNote (pars[i]'(h1 ▸ hi)) notes[i] (roots[i]'(h2 ▸ hi)) (hs[i]'(h3 ▸ hi)) = true := by
  rw [C63_batch_iff]
  constructor
  · rintro ⟨-, H⟩ i hi
    exact H i _ _ _ _ (List.getElem?_eq_getElem _) (List.getElem?_eq_getElem _) (List.getElem?_eq_getElem _)
      (List.getElem?_eq_getElem _)
  · intro H
    have key : ∀ (i : Nat) par note root h, pars[i]? = some par → notes[i]? = some note → roots[i]? = some root →
        hs[i]? = some h → E.verifyNote par note root h = true := by
      intro i par note root h e1 e2 e3 e4
      obtain ⟨hi, rfl⟩ := List.getElem?_eq_some_iff.mp e2
      obtain ⟨_, rfl⟩ := List.getElem?_eq_some_iff.mp e1
      obtain ⟨_, rfl⟩ := List.getElem?_eq_some_iff.mp e3
      obtain ⟨_, rfl⟩ := List.getElem?_eq_some_iff.mp e4
      exact H i hi
    refine ⟨fun i root note e1 e2 => ?_, key⟩
    obtain ⟨hi, rfl⟩ := List.getElem?_eq_some_iff.mp e2
    obtain ⟨_, rfl⟩ := List.getElem?_eq_some_iff.mp e1
    have := H i hi
    unfold NoteExt.verifyNote at this
    by_contra hne
    rw [if_pos hne] at this
    simp at this

/-- C63 is violated: a list of parameters (or of hashes) that is too short hides notes.  With no parameters at all any note
is accepted, for a verifier that rejects it when asked about it alone. -/
theorem C63_batch_ignores_notes (notes : List (Note F Pf Inst)) (hs : List Hs) :
    E.batchVerifyNotes [] notes (notes.map (·.root)) hs = true ∧
    ∀ pars, E.batchVerifyNotes pars notes (notes.map (·.root)) [] = true := by
  have hr : ∀ (i : Nat) root (note : Note F Pf Inst), (notes.map (·.root))[i]? = some root → notes[i]? = some note →
      root = note.root := by
    intro i root note h1 h2
    rw [List.getElem?_map, h2] at h1
    simpa using h1.symm
  refine ⟨(C63_batch_iff ..).mpr ⟨hr, ?_⟩, fun pars => (C63_batch_iff ..).mpr ⟨hr, ?_⟩⟩
  · intro i par note root h h1
    simp at h1
  · intro i par note root h _ _ _ h4
    simp at h4

/-- a verifier that accepts a proof when it is the sum of the public data -/
def toyNoteExt : NoteExt Nat Nat Nat Unit Unit Nat where
  verifyFolding := fun _ i => if i = 7 then some 2 else none
  folded := fun i ch => [i, ch]
  verifyXfr := fun _ pub pf fold => pf == pub.1.sum + pub.2.2.2 + fold.sum

example : toyNoteExt.batchVerifyNotes [(), ()] [⟨[1, 2], [5], 3, 4, 16, 7⟩, ⟨[1], [5], 3, 4, 14, 7⟩] [3, 3] [(), ()] = true ∧
    toyNoteExt.batchVerifyNotes [(), ()] [⟨[1, 2], [5], 3, 4, 16, 7⟩, ⟨[1], [5], 3, 4, 15, 7⟩] [3, 3] [(), ()] = false ∧
    toyNoteExt.verifyNote () ⟨[1], [5], 3, 4, 15, 7⟩ 3 () = false ∧
    toyNoteExt.batchVerifyNotes [()] [⟨[1, 2], [5], 3, 4, 16, 7⟩, ⟨[1], [5], 3, 4, 15, 7⟩] [3, 3] [(), ()] = true := by
  decide

end Notes

end Verif.Anon
