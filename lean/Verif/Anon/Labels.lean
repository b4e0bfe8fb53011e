import Verif.Anon.ConvertVerify
import Verif.Anon.XfrNote

/-!
C82 for the anonymous notes: with what the transcripts of their proofs begin.
-/

namespace Verif.Anon

/-- the proofs of the anonymous notes: the PLONK proof of a transfer with `n` inputs and `m` outputs, those of the four conversions (the
inspection proofs of the confidential ones begin in the same way as the PLONK proofs), and the proofs for the key of the payer -/
inductive NoteProof
  | transfer (n m : Nat)
  | arToAbar
  | abarToAr
  | barToAbar
  | abarToBar
  | transferKey
  | abarToArKey
  | abarToBarKey

/-- the first messages of the transcript: abar_to_abar.rs:307-315, 340-345, ar_to_abar.rs:132, 165, abar_to_ar.rs:33-35, bar_to_abar.rs:184,
266, 301, 335, abar_to_bar.rs:45-47, 151, 295 -/
def NoteProof.start : NoteProof → List (String × Option UInt64)
  | .transfer n m => xfrTranscript n m
  | .arToAbar => [(arToAbarLabel, none)]
  | .abarToAr => [(abarToArLabel, none)]
  | .barToAbar => [(barToAbarLabel, none)]
  | .abarToBar => [(abarToBarLabel, none)]
  | .transferKey => [(xfrFoldLabel, none)]
  | .abarToArKey => [(abarToArFoldLabel, none)]
  | .abarToBarKey => [(abarToBarFoldLabel, none)]

/-- the numbers of records fit the eight bytes they are written in -/
def NoteProof.Fits : NoteProof → Prop
  | .transfer n m => n < 2 ^ 64 ∧ m < 2 ^ 64
  | _ => True

/-- C82: proofs of different kinds of anonymous notes, and of transfers with different numbers of inputs or outputs, never share an input of
the hash: no transcript begins as both. -/
theorem C82_note_labels (a b : NoteProof) (ha : a.Fits) (hb : b.Fits) (t : List (String × Option UInt64)) (h1 : a.start <+: t)
    (h2 : b.start <+: t) : a = b := by
  obtain ⟨s, rfl⟩ := h1
  obtain ⟨s', h⟩ := h2
  cases a with
  | transfer n m =>
    cases b with
    | transfer n' m' =>
      simp only [NoteProof.start, xfrTranscript, List.cons_append, List.cons.injEq, Prod.mk.injEq, Option.some.injEq, true_and] at h
      have e : ∀ x y : Nat, x < 2 ^ 64 → y < 2 ^ 64 → UInt64.ofNat x = UInt64.ofNat y → x = y := by
        intro x y hx hy hxy
        have := congrArg UInt64.toNat hxy
        simp only [UInt64.toNat_ofNat'] at this
        omega
      rw [e _ _ hb.1 ha.1 h.1, e _ _ hb.2 ha.2 h.2.1]
    | _ => simp [NoteProof.start, xfrTranscript, arToAbarLabel, abarToArLabel, barToAbarLabel, abarToBarLabel, xfrFoldLabel, abarToArFoldLabel,
        abarToBarFoldLabel] at h
  | _ =>
    cases b <;> simp [NoteProof.start, xfrTranscript, arToAbarLabel, abarToArLabel, barToAbarLabel, abarToBarLabel, xfrFoldLabel, abarToArFoldLabel,
        abarToBarFoldLabel] at h ⊢

example : (NoteProof.transfer 2 3).Fits ∧ (NoteProof.transfer 3 2).Fits ∧ (NoteProof.transfer 2 3).start ≠ (NoteProof.transfer 3 2).start := by
  simp [NoteProof.Fits, NoteProof.start, xfrTranscript]

end Verif.Anon
