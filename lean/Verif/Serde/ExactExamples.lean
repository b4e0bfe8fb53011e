import Verif.Serde.ExactPadding
import Verif.Serde.ExactXfrPieces
import Verif.Serde.ExactSpelled
import Verif.Serde.ExactTransfer
import Verif.Serde.NoteExamples

/-!
C115 on concrete notes.
-/

namespace Verif.Serde

open Verif.Xfr Verif.Anon Verif.SimFr

/-- the note of C98 with the scalars of the library -/
def exactFold : FoldInst ristretto (ZMod Codec.bls.q) (ZMod ristretto.r) Bytes := ⟨⟨5, [1, 1], [(4, 0), (6, 300)]⟩, [1, 2, 3], [4, 5]⟩

def exactNote : Anon.XfrNote ristretto (ZMod Codec.bls.q) Bytes WPlonk (ZMod ristretto.r) Bytes :=
  ⟨⟨[11, 12], [13], 14, 7, 100000, [⟨[1, 2], [200, 3]⟩]⟩, wireProof, exactFold⟩

def exactText : Bytes := serAXfrNote bincode Codec.bls.toBytes id wireSc wireSc id id exactNote

theorem exactText_length : exactText.length < 2 ^ 32 := by decide +kernel

theorem bls_back (x : ZMod Codec.bls.q) : Codec.bls.fromBytes (Codec.bls.toBytes x) = .ok x := (Codec.C85_scalar_roundtrip Codec.bls_fits x).2

theorem ok_strict {α : Type} : Strict (id : α → α) Res.ok := by
  intro b x h
  cases h
  rfl

/-- C115: with the codecs of the library a second byte string is read as this transfer -/
example : ∃ s, s ≠ exactText ∧ s.length = exactText.length ∧
    readAXfrNote bincodeIn Codec.bls.fromBytes .ok wireScR wireScR .ok .ok s = .ok (exactNote, []) ∧
    readAXfrNote bincodeIn Codec.bls.fromBytes .ok wireScR wireScR .ok .ok exactText = .ok (exactNote, []) :=
  C115_anonymous_transfer_violated (pf := id) (mul := id) (apk := id) (fun _ => rfl) wireScR_of wireScR_of (fun _ => rfl) (fun _ => rfl)
    exactNote exactText_length

/-- C115: with codecs that compare with what they would write, the transfer is read, and from no other byte string -/
example (s : Bytes) : readAXfrNote bincodeIn (checked Codec.bls.toBytes Codec.bls.fromBytes) .ok (checked wireSc wireScR)
    (checked wireSc wireScR) .ok .ok s = .ok (exactNote, []) ↔ s = exactText := by
  have hb := checked_strict Codec.bls.toBytes Codec.bls.fromBytes
  have hw := checked_strict wireSc wireScR
  have h0 := (C98_anonymous_transfer (bls := Codec.bls.toBytes) (blsR := checked Codec.bls.toBytes Codec.bls.fromBytes) (pf := id) (pfR := .ok)
    (fpt := wireSc) (fptR := checked wireSc wireScR) (fsc := wireSc) (fscR := checked wireSc wireScR) (mul := id) (mulR := .ok) (apk := id)
    (apkR := .ok) (fun x => hb.2 x (bls_back x)) (fun _ => rfl) (fun x => hw.2 x (wireScR_of x)) (fun x => hw.2 x (wireScR_of x))
    (fun _ => rfl) (fun _ => rfl) exactNote []).1 exactText_length
  rw [List.append_nil] at h0
  constructor
  · intro h
    obtain ⟨t, h1, h2, -⟩ := C115_anonymous_transfer_partial (pf := id) (mul := id) (apk := id) hb.1 ok_strict hw.1 hw.1 ok_strict
      ok_strict _ _ _ _ _ h h0
    rw [h1, exactText, h2]
  · rintro rfl
    exact h0

/-- a confidential record on its way into the pool, and a public one -/
def exactBar : BarToAbarNote wireT ristretto (ZMod Codec.bls.q) WPlonk :=
  ⟨⟨⟨.conf [3] [0], .conf [5], [1]⟩, 17, ⟨5, [1, 1], [(4, 0), (6, 0)]⟩, wireProof, ([1, 2], [3])⟩, ([9], [8])⟩

def exactAr : ArToAbarNote wireT (ZMod Codec.bls.q) WPlonk :=
  ⟨⟨⟨.plain 9, .plain wireType, [1]⟩, 17, wireProof, ([1, 2], [3])⟩, ([9], [8])⟩

/-- C115: two byte strings for each of the two -/
example : (∃ s, s ≠ serArToAbarNote bincode wireL wireSig Codec.bls.toBytes id exactAr ∧
      readArToAbarNote bincodeIn wireParse Codec.bls.fromBytes .ok s = .ok (exactAr, [])) ∧
    ∃ s, s ≠ serBarToAbarNote bincode wireL wireSig Codec.bls.toBytes id wireSc wireSc exactBar ∧
      readBarToAbarNote bincodeIn wireParse Codec.bls.fromBytes .ok wireScR wireScR s = .ok (exactBar, []) := by
  obtain ⟨⟨s, h1, h2, -⟩, ⟨t, h3, h4, -⟩⟩ := C115_into_pool_violated (pf := id) (fun _ => rfl) wireParse_of wireScR_of wireScR_of exactAr exactBar
    (by decide +kernel) (by decide +kernel)
  exact ⟨⟨s, h1, h2⟩, ⟨t, h3, h4⟩⟩

/-- the signatures of the examples, read with a comparison -/
def strictWire : Parse wireT := { wireParse with sg := checked wireSig wireParse.sg }

theorem strictWire_of : strictWire.Of wireL wireSig :=
  { wireParse_of with sg := fun x => (checked_strict wireSig wireParse.sg).2 x (wireParse_of.sg x) }

theorem strictWire_strict : StrictParse strictWire wireL wireSig :=
  ⟨ok_strict, fun _ => rfl, ok_strict, (checked_strict _ _).1⟩

/-- C115: one byte string with codecs that compare -/
example (s : Bytes) : readBarToAbarNote bincodeIn strictWire (checked Codec.bls.toBytes Codec.bls.fromBytes) .ok (checked wireSc wireScR)
    (checked wireSc wireScR) s = .ok (exactBar, []) ↔ s = serBarToAbarNote bincode wireL wireSig Codec.bls.toBytes id wireSc wireSc exactBar := by
  have hb := checked_strict Codec.bls.toBytes Codec.bls.fromBytes
  have hw := checked_strict wireSc wireScR
  have h0 := (C98_bar_to_abar (bls := Codec.bls.toBytes) (blsR := checked Codec.bls.toBytes Codec.bls.fromBytes) (pf := id) (pfR := .ok)
    (pt := wireSc) (ptR := checked wireSc wireScR) (sc := wireSc) (scR := checked wireSc wireScR) strictWire_of
    (fun x => hb.2 x (bls_back x)) (fun _ => rfl) (fun x => hw.2 x (wireScR_of x)) (fun x => hw.2 x (wireScR_of x)) exactBar []).1
    (by decide +kernel)
  rw [List.append_nil] at h0
  constructor
  · intro h
    obtain ⟨t, h1, h2, -⟩ := C115_bar_to_abar_partial (pf := id) strictWire_strict hb.1 ok_strict hw.1 hw.1 _ _ _ _ _ ⟨_, _, rfl⟩ h h0
    rw [h1, h2]
  · rintro rfl
    exact h0

theorem strictWire_all : StrictAll strictWire wireL wireSig :=
  { strictWire_strict with
    ek := ok_strict, ct := ok_strict, act := ok_strict, ipf := ok_strict, rp := ok_strict, ap := ok_strict, mp := ok_strict, tpf := ok_strict }

/-- a traced transfer of hidden amounts of a hidden type, with an identity proof -/
def exactXfr : XfrNote wireT :=
  ⟨{ inputs := [⟨.conf [3] [0], .conf [5], [1]⟩]
     outputs := [⟨.conf [1] [0], .conf [5], [2]⟩, ⟨.conf [2] [0], .plain wireType, [3]⟩]
     amountProof := .confAll ⟨[1, 2], [3], [4]⟩ ⟨⟨[1], [2], [3], [4], [5]⟩, some ⟨[6], [7], [8], [9], [10]⟩⟩
     tracingProofs := [⟨[1], [2], [3], [4]⟩]
     inputsIdentityProofs := [[some ⟨⟨[1], [2], [3], [[4], [5]]⟩, [⟨[6], [7]⟩], [[8]]⟩]]
     outputsIdentityProofs := [[none], []]
     tracingMemos := [[⟨[1], some (⟨[2], [3]⟩, ⟨[4], [5]⟩), some ⟨[6], [7]⟩, [⟨[8], [9]⟩], [10], [11], ([12], [13])⟩], [], []]
     ownersMemos := [none, none] }, [([1], [7, 7])]⟩

/-- C115: with codecs that compare, this transfer is read, and from no other byte string -/
example (s : Bytes) : readXfrNote bincodeIn strictWire s = .ok (exactXfr, []) ↔ s = serXfrNote bincode wireL wireSig exactXfr := by
  have h0 := C98_transfer_bincode_partial strictWire_of exactXfr [] (by simp [exactXfr]) (by decide +kernel)
  rw [List.append_nil] at h0
  constructor
  · intro h
    obtain ⟨t, h1, -, h2⟩ := C115_transfer_partial strictWire_all _ _ _ _ _ (by simp [exactXfr]) h h0
    rw [h1, h2, List.append_nil]
  · rintro rfl
    exact h0

/-- C115: two byte strings for the note of C97, which is signed and accepted -/
example : wireE.batchVerifyNotes [wireNote] [wirePolicies] = some () ∧
    ∃ s, s ≠ serXfrNote rmp wireL wireSig wireNote ∧ readXfrNote rmpIn wireParse s = .ok (wireNote, []) := by
  obtain ⟨s, h1, h2, -⟩ := C115_transfer_violated wireParse_of wireNote
    ⟨⟨.plain 1000, .plain wireType, [1]⟩, List.mem_append_left _ List.mem_cons_self, 1000, rfl⟩ (by decide +kernel)
  exact ⟨wireNote_accepted, s, h1, h2⟩

/-- two ways out of the pool -/
def exactOutAr : AbarToArNote wireT ristretto (ZMod Codec.bls.q) WPlonk (ZMod ristretto.r) Bytes × UInt64 × Option WMemo :=
  (⟨11, ⟨.plain 9, .plain wireType, [1]⟩, 14, wireProof, exactFold⟩, 7, none)

def exactOutBar : AbarToBarNote wireT ristretto ristretto (ZMod Codec.bls.q) WPlonk (ZMod ristretto.r) Bytes × UInt64 × Option WMemo :=
  (⟨11, ⟨.conf [3] [0], .conf [5], [1]⟩, ⟨5, [1, 1], [(4, 0), (6, 0)]⟩, 14, wireProof, exactFold⟩, 7, some ⟨0, [1, 200], [5]⟩)

/-- C115: two byte strings for each of the two -/
example : (∃ s, s ≠ serAbarToArNote rmp wireL Codec.bls.toBytes id wireSc wireSc id exactOutAr ∧
      readAbarToArNote rmpIn wireParse Codec.bls.fromBytes .ok wireScR wireScR .ok s = .ok (exactOutAr, [])) ∧
    ∃ s, s ≠ serAbarToBarNote rmp wireL Codec.bls.toBytes id wireSc wireSc wireSc wireSc id exactOutBar ∧
      readAbarToBarNote rmpIn wireParse Codec.bls.fromBytes .ok wireScR wireScR wireScR wireScR .ok s = .ok (exactOutBar, []) := by
  obtain ⟨⟨s, h1, h2, -⟩, ⟨t, h3, h4, -⟩⟩ := C115_out_of_pool_violated (pf := id) (mul := id) wireParse_of (fun _ => rfl) wireScR_of wireScR_of
    (fun _ => rfl) wireScR_of wireScR_of exactOutAr exactOutBar (by decide +kernel) (by decide +kernel)
  exact ⟨⟨s, h1, h2⟩, ⟨t, h3, h4⟩⟩

/-- C115: nine, written as `9` and as `+9` -/
example : readAmount bincodeIn wireParse [1, 0, 0, 0, 2, 0, 0, 0, 0, 0, 0, 0, 43, 57] = .ok (.plain 9, []) :=
  (C115_public_amount_violated wireL wireParse 9 []).1

/-- a public transfer without memos -/
def exactPublic : XfrNote wireT := ⟨{ wireBody 990 10 with ownersMemos := [none, none] }, [([1], [7, 7])]⟩

/-- C115: it is read, with the spellings that are written -/
example : ∃ xs ys rest, List.Forall₂ (BarSpelling wireL) exactPublic.body.inputs xs ∧
    List.Forall₂ (BarSpelling wireL) exactPublic.body.outputs ys ∧ ys.length = 2 ∧
    serXfrNote bincode wireL wireSig exactPublic = leBytes 8 1 ++ (xs.flatten ++ (leBytes 8 2 ++ (ys.flatten ++ (rest ++ [])))) := by
  have h0 := C98_transfer_bincode_partial strictWire_of exactPublic [] (by simp [exactPublic]) (by decide +kernel)
  rw [List.append_nil] at h0
  obtain ⟨rest, h⟩ := C115_transfer_spellings_partial strictWire_all exactPublic
  obtain ⟨xs, ys, hx, hy, e⟩ := h _ _ h0
  exact ⟨xs, ys, rest, hx, hy, hy.length_eq.symm, e⟩

/-- the bytes of a public record of the example, with a text for the amount -/
def spelled (t : Bytes) (k : UInt8) : Bytes :=
  [1, 0, 0, 0] ++ (leBytes 8 t.length ++ (t ++ (serAssetType bincode wireL (.plain wireType) ++ bincode.bytes [k])))

def spelledIn (t : Bytes) : Bytes :=
  leBytes 8 1 ++ (([spelled t 1] : List Bytes).flatten ++ (leBytes 8 2 ++ (([spelled [48, 57, 57, 48] 2, spelled [43, 49, 48] 3] : List Bytes).flatten ++
    xfrRest wireL wireSig exactPublic)))

/-- C115: `+1000`, `0990` and `+10` are read as the public transfer of 1000 into 990 and 10 -/
example : readXfrNote bincodeIn strictWire (spelledIn [43, 49, 48, 48, 48]) = .ok (exactPublic, []) := by
  refine (C115_transfer_texts_partial strictWire_all strictWire_of exactPublic (by simp [exactPublic]) _ (by decide +kernel) (by decide)
    (by decide)).mpr ⟨_, _, ?_, ?_, rfl⟩
  · exact .cons (.plain 1000 _ _ _ ((C98_amount_text _ _).mp (by decide))) .nil
  · exact .cons (.plain 990 _ _ _ ((C98_amount_text _ _).mp (by decide))) (.cons (.plain 10 _ _ _ ((C98_amount_text _ _).mp (by decide))) .nil)

/-- `007` and `+7` are spellings of seven, `8` is none -/
example : DecimalOf [48, 48, 55] 7 ∧ DecimalOf [43, 55] 7 ∧ ¬ DecimalOf [56] 7 :=
  ⟨(C98_amount_text _ _).mp (by decide), (C98_amount_text _ _).mp (by decide), fun h => absurd ((C98_amount_text _ _).mpr h) (by decide)⟩

/-- C115: notes into and out of the pool, with codecs that compare: they are read, from these bytes -/
example : (∃ x rest, BarSpelling wireL exactAr.body.input x ∧
      serArToAbarNote bincode wireL wireSig Codec.bls.toBytes id exactAr = x ++ (rest ++ [])) ∧
    ∃ x rest, BarSpelling wireL exactOutAr.1.output x ∧ serAbarToArNote bincode wireL Codec.bls.toBytes id wireSc wireSc id exactOutAr =
      bincode.bytes (Codec.bls.toBytes exactOutAr.1.input) ++ (x ++ (rest ++ [])) := by
  have hb := checked_strict Codec.bls.toBytes Codec.bls.fromBytes
  have hw := checked_strict wireSc wireScR
  have h0 := (C98_ar_to_abar (bls := Codec.bls.toBytes) (blsR := checked Codec.bls.toBytes Codec.bls.fromBytes) (pf := id) (pfR := .ok)
    strictWire_of (fun x => hb.2 x (bls_back x)) (fun _ => rfl) exactAr []).1 (by decide +kernel)
  have h1 := (C98_abar_to_ar_partial (bls := Codec.bls.toBytes) (blsR := checked Codec.bls.toBytes Codec.bls.fromBytes) (pf := id) (pfR := .ok)
    (fpt := wireSc) (fptR := checked wireSc wireScR) (fsc := wireSc) (fscR := checked wireSc wireScR) (mul := id) (mulR := .ok)
    strictWire_of (fun x => hb.2 x (bls_back x)) (fun _ => rfl) (fun x => hw.2 x (wireScR_of x)) (fun x => hw.2 x (wireScR_of x))
    (fun _ => rfl) exactOutAr []).2 (by decide +kernel)
  rw [List.append_nil] at h0
  have h1 := h1.trans (if_pos rfl)
  rw [List.append_nil] at h1
  obtain ⟨rest, h⟩ := C115_ar_to_abar_partial (pf := id) strictWire_strict hb.1 ok_strict exactAr
  obtain ⟨rest', h'⟩ := C115_abar_to_ar_partial (pf := id) (mul := id) strictWire_strict hb.1 ok_strict hw.1 hw.1 ok_strict exactOutAr
  obtain ⟨x, hx, e⟩ := h _ _ h0
  obtain ⟨x', hx', e'⟩ := h' _ _ h1
  exact ⟨⟨x, rest, hx, e⟩, x', rest', hx', e'⟩

/-- out of the pool to a confidential record, without a memo -/
def exactOutPlain : AbarToBarNote wireT ristretto ristretto (ZMod Codec.bls.q) WPlonk (ZMod ristretto.r) Bytes × UInt64 × Option WMemo :=
  (exactOutBar.1, 7, none)

/-- C115: with codecs that compare it is read, and from no other byte string -/
example (s : Bytes) : readAbarToBarNote bincodeIn strictWire (checked Codec.bls.toBytes Codec.bls.fromBytes) .ok (checked wireSc wireScR)
    (checked wireSc wireScR) (checked wireSc wireScR) (checked wireSc wireScR) .ok s = .ok (exactOutPlain, []) ↔
    s = serAbarToBarNote bincode wireL Codec.bls.toBytes id wireSc wireSc wireSc wireSc id exactOutPlain := by
  have hb := checked_strict Codec.bls.toBytes Codec.bls.fromBytes
  have hw := checked_strict wireSc wireScR
  have hx : ∀ x, checked wireSc wireScR (wireSc x) = .ok x := fun x => hw.2 x (wireScR_of x)
  have h0 := (C98_abar_to_bar_partial (bls := Codec.bls.toBytes) (blsR := checked Codec.bls.toBytes Codec.bls.fromBytes) (pf := id)
    (pfR := .ok) (fpt := wireSc) (fptR := checked wireSc wireScR) (fsc := wireSc) (fscR := checked wireSc wireScR) (mul := id) (mulR := .ok)
    (pt := wireSc) (ptR := checked wireSc wireScR) (sc := wireSc) (scR := checked wireSc wireScR) strictWire_of
    (fun x => hb.2 x (bls_back x)) (fun _ => rfl) hx hx hx hx (fun _ => rfl) exactOutPlain []).2 (by decide +kernel)
  have h0 := h0.trans (if_pos rfl)
  rw [List.append_nil] at h0
  constructor
  · intro h
    obtain ⟨t, h1, -, h2⟩ := C115_abar_to_bar_partial (pf := id) (mul := id) strictWire_strict hb.1 ok_strict hw.1 hw.1 ok_strict hw.1 hw.1
      exactOutPlain ⟨_, _, rfl⟩ _ _ _ _ h h0
    rw [h1, h2, List.append_nil]
  · rintro rfl
    exact h0

/-- the two nullifiers of the note in one byte each -/
def shortInputs : Bytes := [2, 0, 0, 0, 0, 0, 0, 0, 1, 0, 0, 0, 0, 0, 0, 0, 11, 1, 0, 0, 0, 0, 0, 0, 0, 12]

theorem shortInputs_pieces : Pieces (Piece Codec.bls.fromBytes) exactNote.body.inputs shortInputs := by
  refine ⟨by decide, [[1, 0, 0, 0, 0, 0, 0, 0, 11], [1, 0, 0, 0, 0, 0, 0, 0, 12]], .cons ?_ (.cons ?_ .nil), by decide⟩
  · exact (C115_scalar_piece_partial _ _).mpr ⟨[11], by decide, by decide, by decide⟩
  · exact (C115_scalar_piece_partial _ _).mpr ⟨[12], by decide, by decide, by decide⟩

/-- with the library's scalars the note is also read from a string in which the nullifiers have one byte each -/
example : ∃ rest, readAXfrNote bincodeIn Codec.bls.fromBytes .ok wireScR wireScR .ok .ok (shortInputs ++ rest) = .ok (exactNote, []) ∧
    ¬ shortInputs <+: exactText := by
  obtain ⟨-, -, -, -, h⟩ := C115_anonymous_transfer_violated (pf := id) (mul := id) (apk := id) (fun _ => rfl) wireScR_of wireScR_of
    (fun _ => rfl) (fun _ => rfl) exactNote exactText_length
  obtain ⟨ins, -, outs, h2, root, h3, memos, h4, proof, h5, fold, h6, -⟩ := (C115_anonymous_transfer_pieces_partial _ _ _ _ _ _ _ _ _).mp h
  exact ⟨_, (C115_anonymous_transfer_pieces_partial _ _ _ _ _ _ _ _ _).mpr
    ⟨shortInputs, shortInputs_pieces, outs, h2, root, h3, memos, h4, proof, h5, fold, h6, rfl⟩, by decide +kernel⟩

/-- a scalar in one byte -/
theorem short_piece (b : UInt8) : Piece Codec.bls.fromBytes (b.toNat : ZMod Codec.bls.q) (leBytes 8 1 ++ [b]) :=
  (C115_scalar_piece_partial _ _).mpr ⟨[b], by simp, by simp [ofLE], rfl⟩

/-- the record of `exactAr` and `exactOutAr` with the amount `+9` -/
def plusNine : Bytes := [1, 0, 0, 0, 2, 0, 0, 0, 0, 0, 0, 0, 43, 57] ++ ([1, 0, 0, 0] ++ (wireL.at' wireType).1 ++ [1, 0, 0, 0, 0, 0, 0, 0, 1])

theorem plusNine_pieces : BarPieces wireParse ⟨.plain 9, .plain wireType, [1]⟩ plusNine := by
  refine ⟨_, ⟨[43, 57], (C98_amount_text _ _).mp (by decide), by decide, rfl⟩, _, ⟨wireL.at' wireType, wireParse_of.at' _, rfl⟩, _,
    ⟨[1], by decide, wireParse_of.pk _, rfl⟩, by decide⟩

/-- C115: the notes into the pool and out of it with the library's scalars, read from strings with scalars in one byte and the amount `+9` -/
example : (∃ rest, readArToAbarNote bincodeIn wireParse Codec.bls.fromBytes .ok (plusNine ++ ((leBytes 8 1 ++ [17]) ++ rest)) = .ok (exactAr, [])) ∧
    ∃ rest, readAbarToArNote bincodeIn wireParse Codec.bls.fromBytes .ok wireScR wireScR .ok ((leBytes 8 1 ++ [11]) ++ (plusNine ++ rest)) =
      .ok (exactOutAr, []) := by
  have h0 := (C98_ar_to_abar (bls := Codec.bls.toBytes) (pf := id) (pfR := .ok) wireParse_of bls_back (fun _ => rfl) exactAr []).1
    (by decide +kernel)
  have h1 := (C98_abar_to_ar_partial (bls := Codec.bls.toBytes) (pf := id) (pfR := .ok) (fpt := wireSc) (fsc := wireSc) (mul := id)
    (mulR := .ok) wireParse_of bls_back (fun _ => rfl) wireScR_of wireScR_of (fun _ => rfl) exactOutAr []).2 (by decide +kernel)
  have h1 := h1.trans (if_pos rfl)
  obtain ⟨_, -, _, -, x3, h3, x4, h4, x5, h5, -⟩ := (C115_ar_to_abar_pieces_partial _ _ _ _ _ _).mp h0
  obtain ⟨-, _, -, _, -, y3, k3, y4, k4, y5, k5, -⟩ := (C115_abar_to_ar_pieces_partial _ _ _ _ _ _ _ _ _ _ _).mp h1
  exact ⟨⟨_, (C115_ar_to_abar_pieces_partial _ _ _ _ _ _).mpr ⟨_, plusNine_pieces, _, short_piece 17, x3, h3, x4, h4, x5, h5, rfl⟩⟩,
    ⟨_, (C115_abar_to_ar_pieces_partial _ _ _ _ _ _ _ _ _ _ _).mpr ⟨rfl, _, short_piece 11, _, plusNine_pieces, y3, k3, y4, k4, y5, k5, rfl⟩⟩⟩

/-- C115: the same for records with hidden parts, and no string for a note with an owner's memo -/
example : (∃ bar rest, readBarToAbarNote bincodeIn wireParse Codec.bls.fromBytes .ok wireScR wireScR (bar ++ ((leBytes 8 1 ++ [17]) ++ rest)) =
      .ok (exactBar, [])) ∧
    (∃ rest, readAbarToBarNote bincodeIn wireParse Codec.bls.fromBytes .ok wireScR wireScR wireScR wireScR .ok ((leBytes 8 1 ++ [11]) ++ rest) =
      .ok (exactOutPlain, [])) ∧
    ∀ s r, readAbarToBarNote bincodeIn wireParse Codec.bls.fromBytes .ok wireScR wireScR wireScR wireScR .ok s ≠ .ok (exactOutBar, r) := by
  have h0 := (C98_bar_to_abar (bls := Codec.bls.toBytes) (pf := id) (pfR := .ok) (pt := wireSc) (sc := wireSc) wireParse_of bls_back
    (fun _ => rfl) wireScR_of wireScR_of exactBar []).1 (by decide +kernel)
  have h1 := (C98_abar_to_bar_partial (bls := Codec.bls.toBytes) (pf := id) (pfR := .ok) (fpt := wireSc) (fsc := wireSc) (mul := id)
    (mulR := .ok) (pt := wireSc) (sc := wireSc) wireParse_of bls_back (fun _ => rfl) wireScR_of wireScR_of wireScR_of wireScR_of (fun _ => rfl)
    exactOutPlain []).2 (by decide +kernel)
  have h1 := h1.trans (if_pos rfl)
  obtain ⟨x1, g1, _, -, x3, h3, x4, h4, x5, h5, x6, h6, -⟩ := (C115_bar_to_abar_pieces_partial _ _ _ _ _ _ _ _).mp h0
  obtain ⟨-, _, -, y2, k2, y3, k3, y4, k4, y5, k5, y6, k6, -⟩ := (C115_abar_to_bar_pieces_partial _ _ _ _ _ _ _ _ _ _ _ _ _).mp h1
  refine ⟨⟨x1, _, (C115_bar_to_abar_pieces_partial _ _ _ _ _ _ _ _).mpr ⟨x1, g1, _, short_piece 17, x3, h3, x4, h4, x5, h5, x6, h6, rfl⟩⟩,
    ⟨_, (C115_abar_to_bar_pieces_partial _ _ _ _ _ _ _ _ _ _ _ _ _).mpr
      ⟨rfl, _, short_piece 11, y2, k2, y3, k3, y4, k4, y5, k5, y6, k6, rfl⟩⟩, fun s r h => ?_⟩
  exact absurd ((C115_abar_to_bar_pieces_partial _ _ _ _ _ _ _ _ _ _ _ _ _).mp h).1 (by decide)

/-- a public record of 1000 with a text for the amount -/
theorem thousand_pieces {t : Bytes} (ht : parseU64 t = some 1000) (hl : t.length < 2 ^ 64) :
    BarPieces wireParse ⟨.plain 1000, .plain wireType, [1]⟩
      ((leBytes 4 1 ++ (leBytes 8 t.length ++ t)) ++ ((leBytes 4 1 ++ (wireL.at' wireType).1) ++ (leBytes 8 1 ++ [1]))) :=
  ⟨_, ⟨t, (C98_amount_text _ _).mp ht, hl, rfl⟩, _, ⟨wireL.at' wireType, wireParse_of.at' _, rfl⟩, _, ⟨[1], by decide, wireParse_of.pk _, rfl⟩, rfl⟩

/-- C115: a transfer with public amounts, read with its input spelt `+1000` and with it spelt `01000`, and none with an owner's memo -/
example : (∃ rest, ∀ t, t = [43, 49, 48, 48, 48] ∨ t = [48, 49, 48, 48, 48] →
    readXfrNote bincodeIn wireParse ((leBytes 8 1 ++ [(leBytes 4 1 ++ (leBytes 8 t.length ++ t)) ++ ((leBytes 4 1 ++ (wireL.at' wireType).1) ++
      (leBytes 8 1 ++ [1]))].flatten) ++ rest) = .ok (exactPublic, [])) ∧
    ∀ s r, readXfrNote bincodeIn wireParse s ≠ .ok (⟨wireBody 990 10, []⟩, r) := by
  have h0 := C98_transfer_bincode_partial wireParse_of exactPublic [] (by simp [exactPublic]) (by decide +kernel)
  obtain ⟨ins, rest, -, h⟩ := C115_respell_inputs_partial wireParse _ _ _ h0
  refine ⟨⟨rest, fun t ht => h _ ⟨by decide, _, .cons (thousand_pieces ?_ ?_) .nil, rfl⟩⟩, fun s r hs => ?_⟩
  · rcases ht with rfl | rfl <;> decide
  · rcases ht with rfl | rfl <;> decide
  · obtain ⟨_, -, _, -, _, -, _, -, _, -, _, -, _, -, _, ⟨-, xs, hx, -⟩, -⟩ := (C115_transfer_pieces_partial _ _ _ _).mp hs
    cases hx with
    | cons h1 h2 => cases h2 with | cons h3 _ => exact absurd h3.1 (by decide)

/-- a point of the group of the examples of C86 -/
def padPoint : Codec.toyPoint.P := ⟨⟨List.replicate 48 0, by decide⟩, by decide⟩

def padFold : FoldInst ristretto (ZMod Codec.bls.q) Codec.toyPoint.P Bytes := ⟨⟨5, [padPoint], [(4, 0), (6, 300)]⟩, [padPoint, padPoint], [4, 5]⟩

def padNote : Anon.XfrNote ristretto (ZMod Codec.bls.q) Bytes WPlonk Codec.toyPoint.P Bytes :=
  ⟨⟨[11, 12], [13], 14, 7, 100000, [⟨[1, 2], [200, 3]⟩]⟩, wireProof, padFold⟩

def padOut : AbarToArNote wireT ristretto (ZMod Codec.bls.q) WPlonk Codec.toyPoint.P Bytes × UInt64 × Option WMemo :=
  (⟨11, ⟨.plain 9, .plain wireType, [1]⟩, 14, wireProof, padFold⟩, 7, none)

def padOutBar : AbarToBarNote wireT ristretto ristretto (ZMod Codec.bls.q) WPlonk Codec.toyPoint.P Bytes × UInt64 × Option WMemo :=
  (⟨11, ⟨.conf [3] [0], .conf [5], [1]⟩, ⟨5, [1, 1], [(4, 0), (6, 0)]⟩, 14, wireProof, padFold⟩, 7, none)

/-- C115: notes with a million bytes of somebody else's, which are read as the notes without them -/
example (t : Bytes) (ht : t.length = 1000000) :
    (∃ s', Padded t (serAXfrNote bincode Codec.bls.toBytes id Codec.toyPoint.toBytes wireSc id id padNote) s' ∧
      readAXfrNote bincodeIn Codec.bls.fromBytes .ok Codec.toyPoint.fromBytes wireScR .ok .ok s' = .ok (padNote, [])) ∧
    (∃ s', Padded t (serAbarToArNote bincode wireL Codec.bls.toBytes id Codec.toyPoint.toBytes wireSc id padOut) s' ∧
      readAbarToArNote bincodeIn wireParse Codec.bls.fromBytes .ok Codec.toyPoint.fromBytes wireScR .ok s' = .ok (padOut, [])) ∧
    ∃ s', Padded t (serAbarToBarNote bincode wireL Codec.bls.toBytes id wireSc wireSc Codec.toyPoint.toBytes wireSc id padOutBar) s' ∧
      readAbarToBarNote bincodeIn wireParse Codec.bls.fromBytes .ok wireScR wireScR Codec.toyPoint.fromBytes wireScR .ok s' =
        .ok (padOutBar, []) := by
  have hp : ∀ x, Codec.toyPoint.fromBytes (Codec.toyPoint.toBytes x) = .ok x :=
    fun x => (Codec.C86_point_roundtrip Codec.toyPoint Codec.toyPoint_laws x).2
  have l0 : (serAXfrNote bincode Codec.bls.toBytes id Codec.toyPoint.toBytes wireSc id id padNote).length < 2 ^ 32 := by decide +kernel
  have l1 : (serAbarToArNote bincode wireL Codec.bls.toBytes id Codec.toyPoint.toBytes wireSc id padOut).length < 2 ^ 32 := by decide +kernel
  have l2 : (serAbarToBarNote bincode wireL Codec.bls.toBytes id wireSc wireSc Codec.toyPoint.toBytes wireSc id padOutBar).length < 2 ^ 32 := by
    decide +kernel
  have h0 := (C98_anonymous_transfer (bls := Codec.bls.toBytes) (pf := id) (pfR := .ok) (mul := id) (mulR := .ok) (apk := id) (apkR := .ok)
    bls_back (fun _ => rfl) hp wireScR_of (fun _ => rfl) (fun _ => rfl) padNote []).1 l0
  have h1 := ((C98_abar_to_ar_partial (bls := Codec.bls.toBytes) (pf := id) (pfR := .ok) (mul := id) (mulR := .ok) wireParse_of bls_back
    (fun _ => rfl) hp wireScR_of (fun _ => rfl) padOut []).2 l1).trans (if_pos rfl)
  have h2 := ((C98_abar_to_bar_partial (bls := Codec.bls.toBytes) (pf := id) (pfR := .ok) (mul := id) (mulR := .ok) wireParse_of bls_back
    (fun _ => rfl) wireScR_of wireScR_of hp wireScR_of (fun _ => rfl) padOutBar []).2 l2).trans (if_pos rfl)
  rw [List.append_nil] at h0 h1 h2
  have ho := C115_padding_out_violated Codec.bls.fromBytes Codec.toyPoint Codec.toyPoint_laws wireScR .ok wireParse .ok wireScR wireScR t
  have hs : ∀ {a b : Nat}, a < 2 ^ 32 → b = 1000000 → a + b < 2 ^ 64 := fun h h' => by omega
  exact ⟨C115_padding_violated _ _ Codec.toyPoint_laws _ _ _ _ _ _ _ (List.cons_ne_nil _ _) h0 t (hs l0 ht),
    ho.1 _ _ _ (List.cons_ne_nil _ _) (hs l1 ht) h1, ho.2 _ _ _ (List.cons_ne_nil _ _) (hs l2 ht) h2⟩

end Verif.Serde
