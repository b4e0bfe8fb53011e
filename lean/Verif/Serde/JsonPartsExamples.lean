import Verif.Serde.JsonParts
import Verif.Serde.JsonKeepsExamples
import Verif.Serde.JsonShowsExamples

/-!
C112 and C113, proofs and memos inside of concrete documents.
-/

namespace Verif.Serde

open Verif.Xfr Verif.Anon Verif.SimFr

/-- C112: the note of C106, written and read -/
example : ∃ j, parseJson (toJson (jXfrNote wireL wireParse wireSig (fun _ => newLayout)) jsonNote) = some j ∧
    writing.under j (ascii! "body") (TransferIn wireL wireParse writing jsonNote.body) ∧
    reading.under j (ascii! "body") (TransferIn wireL wireParse reading jsonNote.body) := by
  obtain ⟨j, h1, h2⟩ := C112_transfer_parts_written wireParse_of newLayout_fits jsonNote
  exact ⟨j, h1, h2, C112_transfer_parts_read _ j h1 _ (fromJson_toJson (good_xfrNote wireParse_of newLayout_fits) (by decide) jsonNote)⟩

/-- C113: a record with a memo for a tracer -/
example : ∃ j, parseJson (toJson (jFullRecord wireL wireParse oldest wireScalars tiny tiny tiny) walletFull) = some j ∧
    writing.under j (ascii! "asset_tracers_memos") (ListIn (TracerMemoIn wireL wireParse writing) walletFull.tracersMemos) ∧
    reading.under j (ascii! "asset_tracers_memos") (ListIn (TracerMemoIn wireL wireParse reading) walletFull.tracersMemos) := by
  obtain ⟨j, h1, -, h2⟩ := C113_asset_record_parts_written wireParse_of oldest_fits wireScalars_good tiny_good tiny_good tiny_good walletFull
  exact ⟨j, h1, h2, (C113_asset_record_parts_read _ j h1 _
    (fromJson_toJson (good_fullRecord wireParse_of oldest_fits wireScalars_good tiny_good tiny_good tiny_good) (by decide) walletFull)).2⟩

/-- C112: the proofs of the five notes of the pool, written and read -/
example : (∃ j, reading.under j (ascii! "proof") (reading.parts id .ok (PlonkIn reading) wireAXfr.proof) ∧
      writing.under j (ascii! "proof") (PlonkIn writing wireAXfr.proof)) ∧
    (∃ j, reading.under j (ascii! "body") (fun b => reading.under b (ascii! "proof") (reading.parts id .ok (PlonkIn reading) wireArNote.body.proof)) ∧
      writing.under j (ascii! "body") (fun b => writing.under b (ascii! "proof") (PlonkIn writing wireArNote.body.proof))) ∧
    (∃ j, reading.under j (ascii! "body") (fun b => reading.under b (ascii! "proof")
      (PairIn (SchnorrIn ⟨wireBls, wireBlsR⟩ ⟨wireSc, wireScR⟩ ⟨wireSc, wireScR⟩ reading) (reading.parts id .ok (PlonkIn reading))
        (wireBarNote.body.schnorr, wireBarNote.body.proof)))) ∧
    (∃ j, reading.under j (ascii! "folding_instance")
      (FoldIn ⟨wireBls, wireBlsR⟩ ⟨wireSc, wireScR⟩ ⟨wireSc, wireScR⟩ ⟨id, .ok⟩ reading (wireAbarToAr none).1.folding)) ∧
    (∃ j, reading.under j (ascii! "body") (fun b => reading.under b (ascii! "delegated_schnorr_proof")
      (SchnorrIn ⟨wireBls, wireBlsR⟩ ⟨wireSc, wireScR⟩ ⟨wireSc, wireScR⟩ reading (wireAbarToBar none).1.schnorr))) := by
  obtain ⟨k0, k1, k2, k3, k4⟩ := C112_pool_parts_written (pf := id) (pfR := .ok) (mul := id) (mulR := .ok) (fpt := wireSc) (fsc := wireSc)
    (fptR := wireScR) (fscR := wireScR) (apk := id) (apkR := .ok) wireParse_of newLayout_fits wireBlsR_of (fun _ => rfl) wireScR_of wireScR_of
    wireScR_of wireScR_of (fun _ => rfl) (fun _ => rfl)
  obtain ⟨j0, a0, b0, -⟩ := k0 wireAXfr
  obtain ⟨j1, a1, b1⟩ := k1 wireArNote
  obtain ⟨j2, a2, -⟩ := k2 wireBarNote
  obtain ⟨j3, a3, -⟩ := k3 (wireAbarToAr none)
  obtain ⟨j4, a4, -⟩ := k4 (wireAbarToBar none)
  have h0 := C106_anonymous_transfer (pf := id) (pfR := .ok) (mul := id) (mulR := .ok) (apk := id) (apkR := .ok) wireBlsR_of (fun _ => rfl) wireScR_of
    wireScR_of (fun _ => rfl) (fun _ => rfl) wireAXfr (.refl _) (writes_text _) [] [] (by decide) (by decide)
  have h1 := C106_ar_to_abar (pf := id) (pfR := .ok) wireParse_of wireBlsR_of (fun _ => rfl) wireArNote (.refl _) (writes_text _) [] [] (by decide) (by decide)
  have h2 := C106_bar_to_abar (pf := id) (pfR := .ok) wireParse_of wireBlsR_of (fun _ => rfl) wireScR_of wireScR_of wireBarNote (.refl _) (writes_text _) [] []
    (by decide) (by decide)
  have h3 := C106_abar_to_ar (pf := id) (pfR := .ok) (mul := id) (mulR := .ok) wireParse_of newLayout_fits wireBlsR_of (fun _ => rfl) wireScR_of wireScR_of
    (fun _ => rfl) (wireAbarToAr none) (.refl _) (writes_text _) [] [] (by decide) (by decide)
  have h4 := C106_abar_to_bar (pf := id) (pfR := .ok) (mul := id) (mulR := .ok) wireParse_of newLayout_fits wireBlsR_of (fun _ => rfl) wireScR_of wireScR_of
    wireScR_of wireScR_of (fun _ => rfl) (wireAbarToBar none) (.refl _) (writes_text _) [] [] (by decide) (by decide)
  rw [List.nil_append, List.append_nil] at h0 h1 h2 h3 h4
  exact ⟨⟨j0, (C112_anonymous_parts_read _ j0 a0 wireAXfr h0).1, b0⟩, ⟨j1, C112_ar_to_abar_parts_read _ j1 a1 wireArNote h1, b1⟩,
    ⟨j2, C112_bar_to_abar_parts_read _ j2 a2 wireBarNote h2⟩, ⟨j3, (C112_abar_to_ar_parts_read _ j3 a3 (wireAbarToAr none) h3).2⟩,
    ⟨j4, (C112_abar_to_bar_parts_read _ j4 a4 (wireAbarToBar none) h4).2.2⟩⟩

end Verif.Serde
