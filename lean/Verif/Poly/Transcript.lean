import Verif.Res

/-!
The merlin transcript as used by plonk/src/poly_commit/transcript.rs and plonk/src/plonk/transcript.rs: the list of everything
absorbed so far, oldest first.  Drawing a challenge also changes the state, so it leaves an entry.
-/

namespace Verif.Poly

/-- what is absorbed: messages, integers, commitments (by their bytes), field elements (by their bytes:
`append_field_elem`, plonk/src/poly_commit/transcript.rs:22-24), drawn challenges -/
inductive Msg (F C : Type) where
  | message (label body : String)
  | u64 (label : String) (n : Nat)
  | commitment (c : C)
  | field (x : F)
  | challenge (label : String)

/-- the state of the transcript -/
abbrev Tr (F C : Type) := List (Msg F C)

/-- models `append_commitment`, plonk/src/poly_commit/transcript.rs:18-20 -/
def appendCommitment {F C : Type} (tr : Tr F C) (c : C) : Tr F C := tr ++ [.commitment c]

/-- models `get_challenge_field_elem`, plonk/src/poly_commit/transcript.rs:26-30: the oracle stands for merlin and ChaCha; it
returns the stream of field elements drawn from the generator seeded by the challenge, of which the first is taken -/
def challengeField {F C : Type} (H : Tr F C → Nat → F) (tr : Tr F C) (label : String) : F × Tr F C :=
  let tr := tr ++ [.challenge label]
  (H tr 0, tr)

/-- models `transcript_append_params` and `init_pcs_batch_eval_transcript`, plonk/src/poly_commit/pcs.rs:196-215; the size of the
field is a constant -/
def initBatchEval {F C : Type} (tr : Tr F C) (maxDegree : Nat) (point : F) : Tr F C :=
  tr ++ [.message "Domain Separator" "New PCS-Batch-Eval Protocol", .message "field size" "", .u64 "max_degree" maxDegree,
    .field point]

end Verif.Poly
