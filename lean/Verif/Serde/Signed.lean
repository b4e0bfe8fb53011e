import Verif.Serde.Bodies
import Verif.Anon.ConvertNotes
import Verif.Xfr.MultiSig

/-!
C97: what is signed determines the body of the note.  The bytes under a signature are the body in MessagePack (transfers) or in
bincode (conversions to anonymous records); no label is signed with them.
-/

namespace Verif.Serde

open Verif.Xfr (Types XfrBody XfrNote Policies)
open Verif.Anon (ArToAbarBody BarToAbarBody ArToAbarNote BarToAbarNote ConvExt bothPlain C81_ar_to_abar_signed
  C81_bar_to_abar_signed_partial)

variable {S : Types} {L : Leaves S} {K Pf : Type} {bls : K → Bytes} {pf : Pf → WPlonk} {Q : SimFr.Params} {pt : S.G → Bytes}
  {sc : ZMod Q.r → Bytes}

/-- C97, transfers: two bodies with the same MessagePack bytes are equal. -/
theorem C97_transfer_bytes (hL : L.Inj) (b b' : XfrBody S) (hl : (serXfrBody rmp L b).length < 2 ^ 32)
    (h : serXfrBody rmp L b = serXfrBody rmp L b') : b = b' :=
  (uniq_xfrBody rmp_lawful hL).inj hl h

/-- C97, transparent to anonymous: two bodies with the same bincode bytes are equal. -/
theorem C97_ar_to_abar_bytes (hL : L.Inj) (hb : Function.Injective bls) (hp : Function.Injective pf) (b b' : ArToAbarBody S K Pf)
    (hl : (serArToAbar bincode L bls pf b).length < 2 ^ 32)
    (h : serArToAbar bincode L bls pf b = serArToAbar bincode L bls pf b') : b = b' :=
  (uniq_arToAbar bincode_lawful hL hb hp).inj hl h

/-- C97, confidential to anonymous: two bodies with the same bincode bytes are equal. -/
theorem C97_bar_to_abar_bytes (hL : L.Inj) (hb : Function.Injective bls) (hp : Function.Injective pf) (ht : Function.Injective pt)
    (hs : Function.Injective sc) (b b' : BarToAbarBody S Q K Pf) (hl : (serBarToAbar bincode L bls pf pt sc b).length < 2 ^ 32)
    (h : serBarToAbar bincode L bls pf pt sc b = serBarToAbar bincode L bls pf pt sc b') : b = b' :=
  (uniq_barToAbar bincode_lawful hL hb hp ht hs).inj hl h

theorem rmp_first (b : XfrBody S) : ∃ t, serXfrBody rmp L b = 0x95 :: t := ⟨_, rfl⟩

theorem bincode_first_record (r : Xfr.BlindAssetRecord S) (t : Bytes) : ∃ x u, (x = 0 ∨ x = 1) ∧ serBar bincode L r ++ t = x :: u := by
  rcases r with ⟨_ | _, _, _⟩
  · exact ⟨0, _, .inl rfl, rfl⟩
  · exact ⟨1, _, .inr rfl, rfl⟩

theorem bincode_first (r : Xfr.BlindAssetRecord S) (t u : Bytes) : serBar bincode L r ++ t ≠ 0x95 :: u := by
  obtain ⟨x, v, hx, e⟩ := bincode_first_record (L := L) r t
  rw [e]
  intro h
  obtain rfl := (List.cons.inj h).1
  revert hx; decide

/-- C97: the bytes of a transfer are not those of a conversion, whatever the bodies. -/
theorem C97_transfer_or_conversion (b : XfrBody S) (a : ArToAbarBody S K Pf) (c : BarToAbarBody S Q K Pf) :
    serXfrBody rmp L b ≠ serArToAbar bincode L bls pf a ∧ serXfrBody rmp L b ≠ serBarToAbar bincode L bls pf pt sc c := by
  obtain ⟨t, e⟩ := rmp_first (L := L) b
  constructor
  · intro h
    rw [e] at h
    exact bincode_first (L := L) a.input _ _ h.symm
  · intro h
    rw [e] at h
    exact bincode_first (L := L) c.input _ _ h.symm

/-- C97: the bytes of the two kinds of conversions differ when the converted records are of the kinds that their verifiers accept. -/
theorem C97_kind_of_conversion (hL : L.Inj) (a : ArToAbarBody S K Pf) (c : BarToAbarBody S Q K Pf)
    (ha : bothPlain a.input = true) (hc : bothPlain c.input = false) (hl : (serArToAbar bincode L bls pf a).length < 2 ^ 32) :
    serArToAbar bincode L bls pf a ≠ serBarToAbar bincode L bls pf pt sc c := by
  intro h
  have hl' := hl
  rw [h] at hl'
  simp only [serArToAbar, serBarToAbar, List.length_append] at h hl hl'
  obtain ⟨e, -⟩ := uniq_bar bincode_lawful hL _ _ _ _ (by omega) (by omega) (List.append_cancel_left h)
  rw [e, hc] at ha
  cases ha

/-- C97: the bytes of the two kinds of conversions also differ, for any records, when the PLONK proof of the first does not have 32
commitments to wires: the number of these commitments stands where the second has the length of a scalar. -/
theorem C97_kind_by_proof (hL : L.Inj) (hbl : ∀ x, (bls x).length = 32) (a : ArToAbarBody S K Pf) (c : BarToAbarBody S Q K Pf)
    (ha : (pf a.proof).cmW.length ≠ 32) (hl : (serArToAbar bincode L bls pf a).length < 2 ^ 32) :
    serArToAbar bincode L bls pf a ≠ serBarToAbar bincode L bls pf pt sc c := by
  intro h
  have hl' := hl
  rw [h] at hl'
  simp only [serArToAbar, serBarToAbar, List.length_append, List.append_assoc] at h hl hl'
  obtain ⟨-, h1⟩ := uniq_bar bincode_lawful hL _ _ _ _ (by omega) (by omega) (List.append_cancel_left h)
  obtain ⟨-, h2⟩ := uniq_bytes bincode_lawful _ _ _ _ (by omega) (by omega) (List.append_cancel_left h1)
  have hw := length_le_flatMap (nonNil_bytes bincode_lawful) (pf a.proof).cmW
  have e : (pf a.proof).cmW.length = (bls c.schnorr.comm).length := by
    simp only [serPlonk, serSchnorr, serVec, List.length_append, List.append_assoc] at h2 hl
    simp only [bincode, List.nil_append, List.append_assoc] at h2
    exact (leBytes_split (by omega) (by rw [hbl]; norm_num) h2).1
  exact ha (e.trans (hbl _))

/-- What the holder of a key has signed: the bodies of some transfers and of some conversions to anonymous records, as the generators of
notes make them, and nothing else.  The proofs of the prover have 5 commitments to wires (`N_WIRES_PER_GATE`,
plonk/src/plonk/constraint_system/turbo.rs:14), and `gen_bar_to_abar_note` refuses a public record (bar_to_abar.rs:71-75). -/
structure Approves (L : Leaves S) (bls : K → Bytes) (pf : Pf → WPlonk) (pt : S.G → Bytes) (sc : ZMod Q.r → Bytes)
    (Signed : Bytes → Prop) (xfr : Set (XfrBody S)) (ar : Set (ArToAbarBody S K Pf)) (bar : Set (BarToAbarBody S Q K Pf)) : Prop where
  only : ∀ m, Signed m → (∃ b ∈ xfr, m = serXfrBody rmp L b) ∨ (∃ b ∈ ar, m = serArToAbar bincode L bls pf b) ∨
    (∃ b ∈ bar, m = serBarToAbar bincode L bls pf pt sc b)
  ar_proof : ∀ b ∈ ar, (pf b.proof).cmW.length = 5
  bar_conf : ∀ b ∈ bar, bothPlain b.input = false

section
variable {Signed : Bytes → Prop} {xfr : Set (XfrBody S)} {ar : Set (ArToAbarBody S K Pf)} {bar : Set (BarToAbarBody S Q K Pf)}

/-- C97, transfers: if the signatures of the owner of an input cannot be forged, the body of an accepted note, with all its records,
proofs and memos, is a transfer that this owner has signed. -/
theorem C97_transfer_approved [Field S.F] [AddCommGroup S.G] [Module S.F S.G] [DecidableEq S.CG] [DecidableEq S.AT] [DecidableEq S.EK]
    (hL : L.Inj) (E : Xfr.Ext S) (hser : ∀ b, E.ser b = some (serXfrBody rmp L b)) (notes : List (XfrNote S)) (pols : List (Policies S))
    (h : E.batchVerifyNotes notes pols = some ()) (n : XfrNote S) (hn : n ∈ notes)
    (hl : (serXfrBody rmp L n.body).length < 2 ^ 32) (r : Xfr.BlindAssetRecord S) (hr : r ∈ n.body.inputs)
    (hun : ∀ m sig, E.sigVerify r.publicKey m sig = true → Signed m) (hA : Approves L bls pf pt sc Signed xfr ar bar) :
    n.body ∈ xfr := by
  obtain ⟨m, e, -, hs⟩ := Xfr.C19_accepted_note_signed E notes pols h n hn
  rw [hser, Option.some.injEq] at e
  obtain ⟨sg, -, hsg⟩ := hs r hr
  rcases hA.only m (hun m sg hsg) with ⟨b, hb, e'⟩ | ⟨b, hb, e'⟩ | ⟨b, hb, e'⟩
  · rw [C97_transfer_bytes hL n.body b hl (e.trans e')]
    exact hb
  · exact absurd (e.trans e') (C97_transfer_or_conversion (bls := bls) (pf := pf) (L := L) (pt := pt) (sc := sc) n.body b
      ⟨b.input, b.output, ⟨b.output, [], []⟩, b.proof, b.memo⟩).1
  · exact absurd (e.trans e') (C97_transfer_or_conversion (bls := bls) (pf := pf) (L := L) (pt := pt) (sc := sc) n.body
      ⟨b.input, b.output, b.proof, b.memo⟩ b).2

variable {Par : Type} [Field K]

/-- C97, transparent to anonymous: if the signatures of the owner of the converted record cannot be forged, the body of an accepted
note is one that this owner has signed. -/
theorem C97_ar_to_abar_approved (hL : L.Inj) (hb : Function.Injective bls) (hp : Function.Injective pf) (E : ConvExt S Q K Par Pf)
    (par : Par) (note : ArToAbarNote S K Pf)
    (h : E.verifyArToAbar (fun b => some (serArToAbar bincode L bls pf b)) par note = .ok ())
    (hl : (serArToAbar bincode L bls pf note.body).length < 2 ^ 32)
    (hun : ∀ m sig, E.sigVerify note.body.input.publicKey m sig = true → Signed m) (hA : Approves L bls pf pt sc Signed xfr ar bar) :
    note.body ∈ ar := by
  have hpl : bothPlain note.body.input = true := by
    unfold ConvExt.verifyArToAbar at h
    obtain ⟨m, -, h⟩ := Res.bind_eq_ok.mp h
    split at h
    swap
    · cases h
    unfold ConvExt.verifyArToAbarBody at h
    unfold bothPlain
    split at h
    · next e1 e2 => rw [e1, e2]; rfl
    · cases h
  obtain ⟨m, e, hs⟩ := C81_ar_to_abar_signed E _ par note h
  rw [Option.some.injEq] at e
  rcases hA.only m (hun m _ hs) with ⟨b, hb', e'⟩ | ⟨b, hb', e'⟩ | ⟨b, hb', e'⟩
  · exact absurd (e.trans e').symm (C97_transfer_or_conversion (bls := bls) (pf := pf) (L := L) (pt := pt) (sc := sc) b note.body
      ⟨note.body.input, note.body.output, ⟨note.body.output, [], []⟩, note.body.proof, note.body.memo⟩).1
  · rw [C97_ar_to_abar_bytes hL hb hp note.body b hl (e.trans e')]
    exact hb'
  · exact absurd (e.trans e') (C97_kind_of_conversion hL note.body b hpl (hA.bar_conf b hb') hl)

variable [AddCommGroup S.G] [DecidableEq S.G] [Module (ZMod Q.r) S.G] [Fact Q.r.Prime]

/-- C97, confidential to anonymous: if the signatures of the key that the caller passes cannot be forged, the body of an accepted note
is one that the holder of this key has signed. -/
theorem C97_bar_to_abar_approved (hL : L.Inj) (hb : Function.Injective bls) (hp : Function.Injective pf) (ht : Function.Injective pt)
    (hsc : Function.Injective sc) (hbl : ∀ x, (bls x).length = 32) (E : ConvExt S Q K Par Pf) (par : Par)
    (note : BarToAbarNote S Q K Pf) (key : S.PK)
    (h : E.verifyBarToAbar (fun b => some (serBarToAbar bincode L bls pf pt sc b)) par note key = .ok ())
    (hl : (serBarToAbar bincode L bls pf pt sc note.body).length < 2 ^ 32)
    (hun : ∀ m sig, E.sigVerify key m sig = true → Signed m) (hA : Approves L bls pf pt sc Signed xfr ar bar) :
    note.body ∈ bar := by
  obtain ⟨m, e, hs⟩ := C81_bar_to_abar_signed_partial E _ par note key h
  rw [Option.some.injEq] at e
  rcases hA.only m (hun m _ hs) with ⟨b, hb', e'⟩ | ⟨b, hb', e'⟩ | ⟨b, hb', e'⟩
  · exact absurd (e.trans e').symm (C97_transfer_or_conversion (bls := bls) (pf := pf) (L := L) (pt := pt) (sc := sc) b
      ⟨note.body.input, note.body.output, note.body.proof, note.body.memo⟩ note.body).2
  · refine absurd (e.trans e').symm (C97_kind_by_proof hL hbl b note.body (by rw [hA.ar_proof b hb']; norm_num) ?_)
    rw [← (e.trans e')]
    exact hl
  · rw [C97_bar_to_abar_bytes hL hb hp ht hsc note.body b hl (e.trans e')]
    exact hb'

end

end Verif.Serde
