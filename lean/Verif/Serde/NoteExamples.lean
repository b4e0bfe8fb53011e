import Verif.Serde.Notes
import Verif.Serde.Examples

/-!
C98 on concrete notes.
-/

namespace Verif.Serde

open Verif.Xfr Verif.Anon Verif.SimFr

/-- signatures of the examples have two parts; every byte of the first is marked -/
def wireSig (s : Bytes × Bytes) : Bytes := s.1.flatMap (fun x => [1, x]) ++ (0 :: s.2)

def wireUnsig : Bytes → Bytes × Bytes
  | 1 :: x :: t => (x :: (wireUnsig t).1, (wireUnsig t).2)
  | _ :: b => ([], b)
  | [] => ([], [])

theorem wireUnsig_sig (a b : Bytes) : wireUnsig (wireSig (a, b)) = (a, b) := by
  induction a with
  | nil => rfl
  | cons x a ih =>
    simp only [wireSig, List.flatMap_cons, List.cons_append, List.nil_append] at ih ⊢
    rw [wireUnsig, ih]

/-- objects that are their own bytes -/
def wireParse : Parse wireT where
  cg := .ok
  at' := id
  pk := .ok
  ek := .ok
  ct := .ok
  act := .ok
  ipf := .ok
  rp := .ok
  ap := .ok
  mp := .ok
  tpf := .ok
  om := .ok
  sg b := .ok (wireUnsig b)
  b64 b := some b

theorem wireParse_of : wireParse.Of wireL wireSig :=
  ⟨fun _ => rfl, fun _ => rfl, fun _ => rfl, fun _ => rfl, fun _ => rfl, fun _ => rfl, fun _ => rfl, fun _ => rfl, fun _ => rfl, fun _ => rfl,
    fun _ => rfl, fun _ => rfl, fun s => congrArg Res.ok (wireUnsig_sig s.1 s.2)⟩

def wireBlsR (b : Bytes) : Res (ZMod Bls.r) := .ok (ofLE b : ZMod Bls.r)

def wireScR (b : Bytes) : Res (ZMod ristretto.r) := .ok (ofLE b : ZMod ristretto.r)

theorem wireBlsR_of (x : ZMod Bls.r) : wireBlsR (wireBls x) = .ok x := by
  have hr : Bls.r < 256 ^ 32 := by decide
  have hx := ZMod.val_lt x
  simp only [wireBlsR, wireBls]
  rw [ofLE_leBytes_of_lt (by omega), ZMod.natCast_zmod_val]

theorem wireScR_of (x : ZMod ristretto.r) : wireScR (wireSc x) = .ok x := by
  have hr : ristretto.r < 256 ^ 32 := by decide
  have hx := ZMod.val_lt x
  simp only [wireScR, wireSc]
  rw [ofLE_leBytes_of_lt (by omega), ZMod.natCast_zmod_val]

/-- C98: the note of C97, which has an owner memo and is accepted by the verifier: read back from MessagePack, refused from bincode -/
example : readXfrNote rmpIn wireParse (serXfrNote rmp wireL wireSig wireNote) = .ok (wireNote, []) ∧
    readXfrNote bincodeIn wireParse (serXfrNote bincode wireL wireSig wireNote) = .err := by
  have h1 := C98_transfer_messagepack wireParse_of wireNote [] (by decide +kernel)
  have h2 := C98_transfer_bincode_violated wireParse_of wireNote [] ⟨1, [1, 200], [5]⟩ (by simp [wireNote, wireBody]) (by decide +kernel)
  rw [List.append_nil] at h1 h2
  exact ⟨h1, h2⟩

/-- the same note without memos -/
def wireBare : XfrNote wireT := { wireNote with body := { wireNote.body with ownersMemos := [none, none] } }

/-- C98: without memos it is read back from bincode -/
example : readXfrNote bincodeIn wireParse (serXfrNote bincode wireL wireSig wireBare) = .ok (wireBare, []) := by
  have h := C98_transfer_bincode_partial wireParse_of wireBare [] (by decide) (by decide +kernel)
  rwa [List.append_nil] at h

/-- C98: the two notes that lead into the anonymous pool -/
example : readArToAbarNote bincodeIn wireParse wireBlsR .ok (serArToAbarNote bincode wireL wireSig wireBls id wireArNote ++ [1, 2]) =
      .ok (wireArNote, [1, 2]) ∧
    readBarToAbarNote rmpIn wireParse wireBlsR .ok wireScR wireScR
      (serBarToAbarNote rmp wireL wireSig wireBls id wireSc wireSc wireBarNote ++ [1, 2]) = .ok (wireBarNote, [1, 2]) :=
  ⟨(C98_ar_to_abar wireParse_of wireBlsR_of (fun _ => rfl) wireArNote [1, 2]).1 (by decide +kernel),
    (C98_bar_to_abar wireParse_of wireBlsR_of (fun _ => rfl) wireScR_of wireScR_of wireBarNote [1, 2]).2 (by decide +kernel)⟩

def wireFold : FoldInst ristretto (ZMod Bls.r) (ZMod ristretto.r) Bytes := ⟨⟨5, [1, 1], [(4, 0), (6, 300)]⟩, [1, 2, 3], [4, 5]⟩

def wireAXfr : Anon.XfrNote ristretto (ZMod Bls.r) Bytes WPlonk (ZMod ristretto.r) Bytes :=
  ⟨⟨[11, 12], [13], 14, 7, 100000, [⟨[1, 2], [200, 3]⟩]⟩, wireProof, wireFold⟩

/-- C98: an anonymous transfer -/
example : readAXfrNote rmpIn wireBlsR .ok wireScR wireScR .ok .ok (serAXfrNote rmp wireBls id wireSc wireSc id id wireAXfr ++ []) =
    .ok (wireAXfr, []) :=
  (C98_anonymous_transfer (bls := wireBls) (pf := id) (mul := id) (apk := id) wireBlsR_of (fun _ => rfl) wireScR_of wireScR_of (fun _ => rfl)
    (fun _ => rfl) wireAXfr []).2 (by decide +kernel)

def wireAbarToBar (m : Option WMemo) :
    AbarToBarNote wireT ristretto ristretto (ZMod Bls.r) WPlonk (ZMod ristretto.r) Bytes × UInt64 × Option WMemo :=
  (⟨11, ⟨.conf [3] [0], .conf [5], [1]⟩, ⟨5, [1, 1], [(4, 0), (6, 0)]⟩, 14, wireProof, wireFold⟩, 7, m)

def wireAbarToAr (m : Option WMemo) :
    AbarToArNote wireT ristretto (ZMod Bls.r) WPlonk (ZMod ristretto.r) Bytes × UInt64 × Option WMemo :=
  (⟨11, ⟨.plain 9, .plain wireType, [1]⟩, 14, wireProof, wireFold⟩, 7, m)

/-- C98: out of the pool to a public record, without memo, with bincode -/
example : readAbarToArNote bincodeIn wireParse wireBlsR .ok wireScR wireScR .ok
      (serAbarToArNote bincode wireL wireBls id wireSc wireSc id (wireAbarToAr none) ++ []) = .ok (wireAbarToAr none, []) :=
  (C98_abar_to_ar_partial (bls := wireBls) (pf := id) (mul := id) wireParse_of wireBlsR_of (fun _ => rfl) wireScR_of wireScR_of
    (fun _ => rfl) (wireAbarToAr none) []).2 (by decide +kernel)

/-- C98: out of the pool to a confidential record, with its memo: MessagePack reads it, bincode does not -/
example : readAbarToBarNote rmpIn wireParse wireBlsR .ok wireScR wireScR wireScR wireScR .ok
      (serAbarToBarNote rmp wireL wireBls id wireSc wireSc wireSc wireSc id (wireAbarToBar (some ⟨0, [1, 200], [5]⟩)) ++ []) =
      .ok (wireAbarToBar (some ⟨0, [1, 200], [5]⟩), []) ∧
    readAbarToBarNote bincodeIn wireParse wireBlsR .ok wireScR wireScR wireScR wireScR .ok
      (serAbarToBarNote bincode wireL wireBls id wireSc wireSc wireSc wireSc id (wireAbarToBar (some ⟨0, [1, 200], [5]⟩)) ++ []) = .err :=
  have h := C98_abar_to_bar_partial (bls := wireBls) (pf := id) (mul := id) wireParse_of wireBlsR_of (fun _ => rfl) wireScR_of wireScR_of
    wireScR_of wireScR_of (fun _ => rfl) (wireAbarToBar (some ⟨0, [1, 200], [5]⟩)) []
  ⟨h.1 (by decide +kernel), h.2 (by decide +kernel)⟩

/-- C98: bytes that make the reader panic: the note of C97 up to its memos, and a share of one byte -/
example : readXfrNote rmpIn wireParse (rmp.tuple 2 ++ (serXfrInit rmp wireL wireNote.body ++ (rmp.seq 1 ++ (rmp.some ++ (hostileMemo [7] ++ []))))) =
    .panic :=
  C98_hostile_note_violated wireParse_of wireNote.body 0 [7] [] (by decide +kernel) (by norm_num) (by decide) (by decide)

/-- the hostile memo itself: an array of three, the name of the key type, a byte string of one byte -/
example : hostileMemo [7] = [0x93, 0xa7, 69, 100, 50, 53, 53, 49, 57, 0xc4, 1, 7] := by decide +kernel

end Verif.Serde
