import Verif.Serde.JsonShows
import Verif.Serde.JsonExamples

/-!
C112 on concrete documents.
-/

namespace Verif.Serde

open Verif.Xfr Verif.Anon Verif.SimFr

/-- a document that someone else made: signatures first, members that no note has, an amount with a sign and a leading zero -/
def foreignDocument : Bytes := ascii! "{\"amount\":{\"NonConfidential\":\"7\"},\"multisig\":{\"signatures\":[]},\"body\":{\"fee\":3,\"outputs\":[],\"inputs\":[{\"value\":9,\"public_key\":\"AA==\",\"asset_type\":{\"NonConfidential\":[7,7,7,7,7,7,7,7,7,7,7,7,7,7,7,7,7,7,7,7,7,7,7,7,7,7,7,7,7,7,7,7]},\"amount\":{\"NonConfidential\":\"+05\"}}],\"proofs\":{\"asset_type_and_amount_proof\":\"NoProof\",\"asset_tracing_proof\":{\"asset_type_and_amount_proofs\":[],\"inputs_identity_proofs\":[[]],\"outputs_identity_proofs\":[]}},\"asset_tracing_memos\":[[]],\"owners_memos\":[]}}"

/-- the text under a path -/
def textAt (t : Bytes) (p : List Step) : Option Bytes := ((parseJson t).bind (fun j => j.at p)).bind (fun v => match v with
  | .str s => some s
  | _ => none)

/-- C112: the node takes it for a transfer, and the amount of its input is the one an explorer shows -/
example : ∃ n r, fromJson (jXfrNote wireL wireParse wireSig (fun _ => newLayout)) foreignDocument = .ok n ∧ n.body.inputs[0]? = some r ∧
    r.amount = .plain 5 ∧ n.body.inputs.length = 1 := by
  have h1 : (Res.toOption (fromJson (jXfrNote wireL wireParse wireSig (fun _ => newLayout)) foreignDocument)).isSome = true := by decide +kernel
  have h2 : (parseJson foreignDocument).isSome = true := by decide +kernel
  have h3 : textAt foreignDocument [n! "body", n! "inputs", .nth 0, n! "amount", n! "NonConfidential"] = some (ascii! "+05") := by decide +kernel
  obtain ⟨n, hn⟩ : ∃ n, fromJson (jXfrNote wireL wireParse wireSig (fun _ => newLayout)) foreignDocument = .ok n := by
    cases e : fromJson (jXfrNote wireL wireParse wireSig (fun _ => newLayout)) foreignDocument with
    | ok n => exact ⟨n, rfl⟩
    | err => rw [e] at h1; cases h1
    | panic => rw [e] at h1; cases h1
  obtain ⟨j, hj⟩ := Option.isSome_iff_exists.mp h2
  have seen := C112_transfer_read foreignDocument j hj n hn
  simp only [textAt, hj, Option.bind_some, Option.bind_eq_some_iff] at h3
  obtain ⟨v, h4, h5⟩ := h3
  obtain ⟨w, a1, a2⟩ := at_name h4
  obtain ⟨x, a3, a4⟩ := at_name a2
  obtain ⟨y, a5, a6⟩ := at_nth a4
  obtain ⟨r, b1, b2⟩ := seen.inputs 0 y (by simp only [Json.at, a1, a3, a5, Option.bind_some])
  obtain ⟨s, a, b3, b4, b5⟩ := b2.amount v a6
  subst b3
  cases h5
  have b6 : parseU64 (ascii! "+05") = some 5 := by decide
  rw [b6] at b4
  cases b4
  refine ⟨n, r, hn, b1, b5, ?_⟩
  have h7 : (match j.at [n! "body", n! "inputs"] with
    | some (.arr l) => l.length
    | _ => 0) = 1 := by
    have h8 : ((parseJson foreignDocument).bind (fun j => some (match j.at [n! "body", n! "inputs"] with
      | some (.arr l) => l.length
      | _ => 0))) = some 1 := by decide +kernel
    rw [hj] at h8
    exact Option.some.inj h8
  obtain ⟨l, c1, c2⟩ := seen.inputCount x (by simp only [Json.at, a1, a3, Option.bind_some])
  rw [show j.at [n! "body", n! "inputs"] = some (.arr l) by rw [← c1]; simp only [Json.at, a1, a3, Option.bind_some]] at h7
  rw [← c2]
  exact h7

/-- C112: the members that no note has say nothing -/
example : textAt foreignDocument [n! "amount", n! "NonConfidential"] = some (ascii! "7") := by decide +kernel

/-- C112: the notes of C106 as the node writes them -/
example : (∃ j, parseJson (toJson (jXfrNote wireL wireParse wireSig (fun _ => newLayout)) jsonNote) = some j ∧ XfrWritten wireL wireSig jsonNote j) ∧
    (∃ j, parseJson (toJson (jAXfrNote wireBls id wireBlsR .ok wireSc wireSc id wireScR wireScR .ok id .ok) wireAXfr) = some j ∧
      AXfrWritten wireBls id wireAXfr j) :=
  ⟨C112_transfer_written wireParse_of jsonNote, C112_anonymous_written (pf := id) (pfR := .ok) (mul := id) (mulR := .ok) (apk := id) (apkR := .ok)
    wireBlsR_of (fun _ => rfl) wireScR_of wireScR_of (fun _ => rfl) (fun _ => rfl) wireAXfr⟩

/-- C112: what is written of the anonymous transfer is read by the node, and both see the same fee -/
example : ∃ j, parseJson (toJson (jAXfrNote wireBls id wireBlsR .ok wireSc wireSc id wireScR wireScR .ok id .ok) wireAXfr) = some j ∧
    j.at [n! "body", n! "fee"] = some (.num wireAXfr.body.fee.toNat) ∧ AXfrSeen wireBlsR .ok wireAXfr j := by
  obtain ⟨j, h1, h2⟩ := C112_anonymous_written (pf := id) (pfR := .ok) (mul := id) (mulR := .ok) (apk := id) (apkR := .ok) (fpt := wireSc)
    (fsc := wireSc) (fptR := wireScR) (fscR := wireScR) wireBlsR_of (fun _ => rfl) wireScR_of wireScR_of (fun _ => rfl) (fun _ => rfl) wireAXfr
  have h3 := C106_anonymous_transfer (pf := id) (pfR := .ok) (mul := id) (mulR := .ok) (apk := id) (apkR := .ok) wireBlsR_of (fun _ => rfl) wireScR_of
    wireScR_of (fun _ => rfl) (fun _ => rfl) wireAXfr (.refl _) (writes_text _) [] [] (by decide) (by decide)
  rw [List.nil_append, List.append_nil] at h3
  exact ⟨j, h1, h2.fee, C112_anonymous_read _ j h1 wireAXfr h3⟩

/-- C112: the four kinds of conversion notes, written and read -/
example : ∃ j1 j2 j3 j4 v, DepositSeen wireParse wireBlsR wireArNote.body.input wireArNote.body.output wireArNote.body.memo wireArNote.signature j1 ∧
    DepositSeen wireParse wireBlsR wireBarNote.body.input wireBarNote.body.output wireBarNote.body.memo wireBarNote.signature j2 ∧
    PaymentSeen wireParse wireBlsR (wireAbarToAr none).1.input (wireAbarToAr none).1.output (wireAbarToAr none).1.root (wireAbarToAr none).2.1 j3 ∧
    PaymentSeen wireParse wireBlsR (wireAbarToBar none).1.input (wireAbarToBar none).1.output (wireAbarToBar none).1.root (wireAbarToBar none).2.1 j4 ∧
    j1.at [n! "body", n! "input"] = some v ∧ BarWritten wireL wireArNote.body.input v ∧ BarSeen wireParse wireArNote.body.input v := by
  obtain ⟨k1, k2, k3, k4⟩ := C112_conversions_written (pf := id) (pfR := .ok) (mul := id) (mulR := .ok) (fpt := wireSc) (fsc := wireSc)
    (fptR := wireScR) (fscR := wireScR) wireParse_of wireBlsR_of (fun _ => rfl) wireScR_of wireScR_of wireScR_of wireScR_of (fun _ => rfl)
  obtain ⟨j1, v1, a1, b1, c1, -⟩ := k1 wireArNote
  obtain ⟨j2, v2, a2, -⟩ := k2 wireBarNote
  obtain ⟨j3, v3, a3, -⟩ := k3 (wireAbarToAr none)
  obtain ⟨j4, v4, a4, -⟩ := k4 (wireAbarToBar none)
  have h1 := C106_ar_to_abar (pf := id) (pfR := .ok) wireParse_of wireBlsR_of (fun _ => rfl) wireArNote (.refl _) (writes_text _) [] [] (by decide) (by decide)
  have h2 := C106_bar_to_abar (pf := id) (pfR := .ok) wireParse_of wireBlsR_of (fun _ => rfl) wireScR_of wireScR_of wireBarNote (.refl _) (writes_text _) [] []
    (by decide) (by decide)
  have h3 := C106_abar_to_ar (pf := id) (pfR := .ok) (mul := id) (mulR := .ok) wireParse_of newLayout_fits wireBlsR_of (fun _ => rfl) wireScR_of wireScR_of
    (fun _ => rfl) (wireAbarToAr none) (.refl _) (writes_text _) [] [] (by decide) (by decide)
  have h4 := C106_abar_to_bar (pf := id) (pfR := .ok) (mul := id) (mulR := .ok) wireParse_of newLayout_fits wireBlsR_of (fun _ => rfl) wireScR_of wireScR_of
    wireScR_of wireScR_of (fun _ => rfl) (wireAbarToBar none) (.refl _) (writes_text _) [] [] (by decide) (by decide)
  rw [List.nil_append, List.append_nil] at h1 h2 h3 h4
  have s1 := C112_ar_to_abar_read _ j1 a1 wireArNote h1
  exact ⟨j1, j2, j3, j4, v1, s1, C112_bar_to_abar_read _ j2 a2 wireBarNote h2, C112_abar_to_ar_read _ j3 a3 (wireAbarToAr none) h3,
    C112_abar_to_bar_read _ j4 a4 (wireAbarToBar none) h4, b1, c1, s1.input v1 b1⟩

end Verif.Serde
