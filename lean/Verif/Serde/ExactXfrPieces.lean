import Verif.Serde.ExactPoolPieces

/-!
C115 without a condition on the codecs, for ordinary transfers: which bincode strings are read as a given transfer note.
-/

namespace Verif.Serde

open Verif.Xfr (Types XfrAmount XfrAssetType BlindAssetRecord TracerMemo RangeProof AmountProof XfrBody XfrNote)

/-- nothing, or a value after a one -/
def Maybe {α : Type} (E : α → Bytes → Prop) : Option α → Bytes → Prop
  | none, x => x = [0]
  | some a, x => ∃ y, E a y ∧ x = 1 :: y

theorem option_spelt {α : Type} {E : α → Bytes → Prop} {rd : Reader α} (h : Spelt E rd) : Spelt (Maybe E) (readOption bincodeIn rd) := by
  have e : ∀ s b r, bincodeIn.opt s = .ok (b, r) ↔ s = (if b then 1 else 0) :: r := by
    intro s b r
    have e : bincodeIn.opt = (do
      let b ← nextByte
      if b = 0 then pure false else if b = 1 then pure true else refuse : Reader Bool) := rfl
    rw [e, rbind_ok]
    constructor
    · rintro ⟨c, t, h3, h4⟩
      obtain ⟨_, e1, rfl⟩ := (u8_spelt _ _ _).mp (show bincodeIn.u8 _ = _ from h3)
      split_ifs at h4 with hc hc'
      · obtain ⟨rfl, rfl⟩ := rpure_ok.mp h4
        rw [e1, hc]
        rfl
      · obtain ⟨rfl, rfl⟩ := rpure_ok.mp h4
        rw [e1, hc']
        rfl
      · exact (refuse_ok.mp h4).elim
    · rintro rfl
      cases b
      · exact ⟨0, r, rfl, rfl⟩
      · exact ⟨1, r, rfl, rfl⟩
  intro s a r
  simp only [readOption, rbind_ok, e]
  constructor
  · rintro ⟨b, t, rfl, h2⟩
    cases b with
    | true =>
      simp only [if_true, rbind_ok, rpure_ok, h _ _ _] at h2
      obtain ⟨a', _, ⟨x, hx, rfl⟩, rfl, rfl⟩ := h2
      exact ⟨_, ⟨x, hx, rfl⟩, rfl⟩
    | false =>
      obtain ⟨rfl, rfl⟩ := rpure_ok.mp h2
      exact ⟨_, rfl, rfl⟩
  · rintro ⟨x, hx, rfl⟩
    cases a with
    | none =>
      cases hx
      exact ⟨false, r, rfl, rfl⟩
    | some a =>
      obtain ⟨y, hy, rfl⟩ := hx
      refine ⟨true, y ++ r, rfl, ?_⟩
      simp only [if_true, rbind_ok, rpure_ok, h _ _ _]
      exact ⟨a, r, ⟨y, hy, rfl⟩, rfl, rfl⟩

/-! ### Parts -/

/-- byte strings, one after the other -/
def BytesPieces (l : List Bytes) (x : Bytes) : Prop := (∀ b ∈ l, b.length < 2 ^ 64) ∧ x = l.flatMap fun b => leBytes 8 b.length ++ b

/-- all strings of a list are short -/
def AllShort : List Bytes → Prop
  | [] => True
  | b :: l => b.length < 2 ^ 64 ∧ AllShort l

theorem short_all {l : List Bytes} (h : AllShort l) : ∀ b ∈ l, b.length < 2 ^ 64 := by
  induction l with
  | nil => exact fun b hb => absurd hb List.not_mem_nil
  | cons c l ih => exact List.forall_mem_cons.mpr ⟨h.1, ih h.2⟩

theorem piece_bytes (b x : Bytes) : Piece .ok b x ↔ b.length < 2 ^ 64 ∧ x = leBytes 8 b.length ++ b := by
  constructor
  · rintro ⟨c, h1, e, rfl⟩
    cases e
    exact ⟨h1, rfl⟩
  · rintro ⟨h1, rfl⟩
    exact ⟨b, h1, rfl, rfl⟩

theorem bytes_iff (s a r : Bytes) : bincodeIn.bytes s = .ok (a, r) ↔ a.length < 2 ^ 64 ∧ s = leBytes 8 a.length ++ (a ++ r) := by
  rw [bytes_spelt]
  simp only [piece_bytes]
  constructor
  · rintro ⟨x, ⟨h, rfl⟩, rfl⟩
    exact ⟨h, List.append_assoc _ _ _⟩
  · rintro ⟨h, rfl⟩
    exact ⟨_, ⟨h, rfl⟩, (List.append_assoc _ _ _).symm⟩

def CpPieces (w : WCp) : Bytes → Prop := BytesPieces [w.c3, w.c4, w.z1, w.z2, w.z3]

theorem cp_spelt : Spelt CpPieces (readCp bincodeIn) := by
  intro s a r
  simp only [readCp, rbind_ok, rpure_ok, bincode_tuple_ok, bytes_iff]
  constructor
  · rintro ⟨_, _, rfl, _, _, ⟨h1, rfl⟩, _, _, ⟨h2, rfl⟩, _, _, ⟨h3, rfl⟩, _, _, ⟨h4, rfl⟩, _, _, ⟨h5, rfl⟩, rfl, rfl⟩
    exact ⟨_, ⟨short_all (by exact ⟨h1, h2, h3, h4, h5, trivial⟩), rfl⟩, by simp⟩
  · rintro ⟨_, ⟨h, rfl⟩, rfl⟩
    simp only [List.mem_cons, List.not_mem_nil, or_false, forall_eq_or_imp, forall_eq] at h
    obtain ⟨h1, h2, h3, h4, h5⟩ := h
    exact ⟨(), _, rfl, _, _, ⟨h1, by simp⟩, _, _, ⟨h2, rfl⟩, _, _, ⟨h3, rfl⟩, _, _, ⟨h4, rfl⟩, _, _, ⟨h5, rfl⟩, rfl, rfl⟩

def CpxPieces (w : WCpx) (x : Bytes) : Prop := ∃ x1, CpPieces w.c1EqC2 x1 ∧ ∃ x2, Maybe CpPieces w.zero x2 ∧ x = x1 ++ x2

theorem cpx_spelt : Spelt CpxPieces (readCpx bincodeIn) := by
  intro s a r
  simp only [readCpx, rbind_ok, rpure_ok, bincode_tuple_ok, cp_spelt _ _ _, option_spelt cp_spelt _ _ _]
  constructor
  · rintro ⟨_, _, rfl, _, _, ⟨x1, h1, rfl⟩, _, _, ⟨x2, h2, rfl⟩, rfl, rfl⟩
    exact ⟨_, ⟨x1, h1, x2, h2, rfl⟩, (List.append_assoc _ _ _).symm⟩
  · rintro ⟨_, ⟨x1, h1, x2, h2, rfl⟩, rfl⟩
    exact ⟨(), _, rfl, _, _, ⟨x1, h1, List.append_assoc _ _ _⟩, _, _, ⟨x2, h2, rfl⟩, rfl, rfl⟩

def PegPieces (w : WPeg) : Bytes → Prop := BytesPieces [w.z1, w.z2, w.e1, w.c1]

theorem peg_spelt : Spelt PegPieces (readPeg bincodeIn) := by
  intro s a r
  simp only [readPeg, rbind_ok, rpure_ok, bincode_tuple_ok, bytes_iff]
  constructor
  · rintro ⟨_, _, rfl, _, _, ⟨h1, rfl⟩, _, _, ⟨h2, rfl⟩, _, _, ⟨h3, rfl⟩, _, _, ⟨h4, rfl⟩, rfl, rfl⟩
    exact ⟨_, ⟨short_all (by exact ⟨h1, h2, h3, h4, trivial⟩), rfl⟩, by simp⟩
  · rintro ⟨_, ⟨h, rfl⟩, rfl⟩
    simp only [List.mem_cons, List.not_mem_nil, or_false, forall_eq_or_imp, forall_eq] at h
    obtain ⟨h1, h2, h3, h4⟩ := h
    exact ⟨(), _, rfl, _, _, ⟨h1, by simp⟩, _, _, ⟨h2, rfl⟩, _, _, ⟨h3, rfl⟩, _, _, ⟨h4, rfl⟩, rfl, rfl⟩

def CtPieces (w : WCt) : Bytes → Prop := BytesPieces [w.e1, w.e2]

theorem ct_spelt : Spelt CtPieces (readCt bincodeIn) := by
  intro s a r
  simp only [readCt, rbind_ok, rpure_ok, bincode_tuple_ok, bytes_iff]
  constructor
  · rintro ⟨_, _, rfl, _, _, ⟨h1, rfl⟩, _, _, ⟨h2, rfl⟩, rfl, rfl⟩
    exact ⟨_, ⟨short_all (by exact ⟨h1, h2, trivial⟩), rfl⟩, by simp⟩
  · rintro ⟨_, ⟨h, rfl⟩, rfl⟩
    simp only [List.mem_cons, List.not_mem_nil, or_false, forall_eq_or_imp, forall_eq] at h
    obtain ⟨h1, h2⟩ := h
    exact ⟨(), _, rfl, _, _, ⟨h1, by simp⟩, _, _, ⟨h2, rfl⟩, rfl, rfl⟩

def PokPieces (w : WPok) (x : Bytes) : Prop :=
  ∃ x1, BytesPieces [w.blinding, w.responseT, w.responseSk] x1 ∧ ∃ x2, Pieces (Piece .ok) w.responseAttrs x2 ∧ x = x1 ++ x2

theorem pok_spelt : Spelt PokPieces (readPok bincodeIn) := by
  intro s a r
  simp only [readPok, rbind_ok, rpure_ok, bincode_tuple_ok, bytes_iff, vec_spelt bytes_spelt _ _ _]
  constructor
  · rintro ⟨_, _, rfl, _, _, ⟨h1, rfl⟩, _, _, ⟨h2, rfl⟩, _, _, ⟨h3, rfl⟩, _, _, ⟨x, h4, rfl⟩, rfl, rfl⟩
    exact ⟨_, ⟨_, ⟨short_all (by exact ⟨h1, h2, h3, trivial⟩), rfl⟩, x, h4, rfl⟩, by simp⟩
  · rintro ⟨_, ⟨_, ⟨h, rfl⟩, x, h4, rfl⟩, rfl⟩
    simp only [List.mem_cons, List.not_mem_nil, or_false, forall_eq_or_imp, forall_eq] at h
    obtain ⟨h1, h2, h3⟩ := h
    exact ⟨(), _, rfl, _, _, ⟨h1, by simp⟩, _, _, ⟨h2, rfl⟩, _, _, ⟨h3, rfl⟩, _, _, ⟨x, h4, rfl⟩, rfl, rfl⟩

def CacPieces (w : WCac) (x : Bytes) : Prop :=
  ∃ x1, PokPieces w.pok x1 ∧ ∃ x2, Pieces CtPieces w.cmCt x2 ∧ ∃ x3, Pieces (Piece .ok) w.responseRands x3 ∧ x = x1 ++ (x2 ++ x3)

theorem cac_spelt : Spelt CacPieces (readCac bincodeIn) := by
  intro s a r
  simp only [readCac, rbind_ok, rpure_ok, bincode_tuple_ok, pok_spelt _ _ _, vec_spelt ct_spelt _ _ _, vec_spelt bytes_spelt _ _ _]
  constructor
  · rintro ⟨_, _, rfl, _, _, ⟨x1, h1, rfl⟩, _, _, ⟨x2, h2, rfl⟩, _, _, ⟨x3, h3, rfl⟩, rfl, rfl⟩
    exact ⟨_, ⟨x1, h1, x2, h2, x3, h3, rfl⟩, by simp only [List.append_assoc]⟩
  · rintro ⟨_, ⟨x1, h1, x2, h2, x3, h3, rfl⟩, rfl⟩
    exact ⟨(), _, rfl, _, _, ⟨x1, h1, by simp only [List.append_assoc]⟩, _, _, ⟨x2, h2, rfl⟩, _, _, ⟨x3, h3, rfl⟩, rfl, rfl⟩

section
variable {S : Types} (R : Parse S)

theorem ctPair_spelt : Spelt (Both (Made CtPieces R.ct) (Made CtPieces R.ct)) (readCtPair bincodeIn R) := by
  intro s a r
  simp only [readCtPair, rbind_ok, rpure_ok, bincode_tuple_ok, made_spelt ct_spelt R.ct _ _ _]
  constructor
  · rintro ⟨_, _, rfl, _, _, ⟨x1, h1, rfl⟩, _, _, ⟨x2, h2, rfl⟩, rfl, rfl⟩
    exact ⟨_, ⟨x1, h1, x2, h2, rfl⟩, (List.append_assoc _ _ _).symm⟩
  · rintro ⟨_, ⟨x1, h1, x2, h2, rfl⟩, rfl⟩
    exact ⟨(), _, rfl, _, _, ⟨x1, h1, List.append_assoc _ _ _⟩, _, _, ⟨x2, h2, rfl⟩, rfl, rfl⟩

/-- the memo for a tracer -/
def TracerPieces (m : TracerMemo S) (x : Bytes) : Prop :=
  ∃ x1, Piece R.ek m.encKey x1 ∧ ∃ x2, BytesPieces [m.attrsEncKey, m.lockInfoEncKey] x2 ∧
    ∃ x3, Maybe (Both (Made CtPieces R.ct) (Made CtPieces R.ct)) m.lockAmount x3 ∧ ∃ x4, Maybe (Made CtPieces R.ct) m.lockAssetType x4 ∧
    ∃ x5, Pieces (Made CtPieces R.act) m.lockAttributes x5 ∧ ∃ x6, BytesPieces [m.lockInfo.1, m.lockInfo.2] x6 ∧
    x = x1 ++ (x2 ++ (x3 ++ (x4 ++ (x5 ++ x6))))

theorem tracer_spelt : Spelt (TracerPieces R) (readTracerMemo bincodeIn R) := by
  intro s a r
  simp only [readTracerMemo, rbind_ok, rpure_ok, bincode_tuple_ok, leaf_spelt R.ek _ _ _, bytes_iff, option_spelt (ctPair_spelt R) _ _ _,
    option_spelt (made_spelt ct_spelt R.ct) _ _ _, vec_spelt (made_spelt ct_spelt R.act) _ _ _]
  constructor
  · rintro ⟨_, _, rfl, _, _, rfl, _, _, ⟨x1, h1, rfl⟩, _, _, ⟨h2, rfl⟩, _, _, ⟨h2', rfl⟩, _, _, ⟨x3, h3, rfl⟩, _, _, ⟨x4, h4, rfl⟩,
      _, _, ⟨x5, h5, rfl⟩, _, _, rfl, _, _, ⟨h6, rfl⟩, _, _, ⟨h6', rfl⟩, rfl, rfl⟩
    exact ⟨_, ⟨x1, h1, _, ⟨short_all (by exact ⟨h2, h2', trivial⟩), rfl⟩, x3, h3, x4, h4, x5, h5, _, ⟨short_all (by exact ⟨h6, h6', trivial⟩), rfl⟩, rfl⟩, by simp⟩
  · rintro ⟨_, ⟨x1, h1, _, ⟨h2, rfl⟩, x3, h3, x4, h4, x5, h5, _, ⟨h6, rfl⟩, rfl⟩, rfl⟩
    simp only [List.mem_cons, List.not_mem_nil, or_false, forall_eq_or_imp, forall_eq] at h2 h6
    simp only [List.append_assoc, List.flatMap_cons, List.flatMap_nil, List.nil_append]
    exact ⟨(), _, rfl, (), _, rfl, _, _, ⟨x1, h1, rfl⟩, _, _, ⟨h2.1, rfl⟩, _, _, ⟨h2.2, rfl⟩,
      _, _, ⟨x3, h3, rfl⟩, _, _, ⟨x4, h4, rfl⟩, _, _, ⟨x5, h5, rfl⟩, (), _, rfl, _, _, ⟨h6.1, rfl⟩, _, _, ⟨h6.2, rfl⟩, rfl, rfl⟩

def RangePieces (p : RangeProof S) (x : Bytes) : Prop :=
  ∃ x1, Piece R.rp p.proof x1 ∧ ∃ x2, Piece R.cg p.diffLow x2 ∧ ∃ x3, Piece R.cg p.diffHigh x3 ∧ x = x1 ++ (x2 ++ x3)

theorem range_spelt : Spelt (RangePieces R) (readRangeProof bincodeIn R) := by
  intro s a r
  simp only [readRangeProof, rbind_ok, rpure_ok, bincode_tuple_ok, leaf_spelt _ _ _ _]
  constructor
  · rintro ⟨_, _, rfl, _, _, ⟨x1, h1, rfl⟩, _, _, ⟨x2, h2, rfl⟩, _, _, ⟨x3, h3, rfl⟩, rfl, rfl⟩
    exact ⟨_, ⟨x1, h1, x2, h2, x3, h3, rfl⟩, by simp only [List.append_assoc]⟩
  · rintro ⟨_, ⟨x1, h1, x2, h2, x3, h3, rfl⟩, rfl⟩
    exact ⟨(), _, rfl, _, _, ⟨x1, h1, by simp only [List.append_assoc]⟩, _, _, ⟨x2, h2, rfl⟩, _, _, ⟨x3, h3, rfl⟩, rfl, rfl⟩

/-- the proof about amounts and types: its kind on four bytes, then its parts -/
def AmountProofPieces : AmountProof S → Bytes → Prop
  | .assetMix p, x => ∃ y, Piece R.mp p y ∧ x = leBytes 4 0 ++ y
  | .confAmount p, x => ∃ y, RangePieces R p y ∧ x = leBytes 4 1 ++ y
  | .confAsset p, x => ∃ y, Made CpxPieces R.ap p y ∧ x = leBytes 4 2 ++ y
  | .confAll p q, x => ∃ y, RangePieces R p y ∧ ∃ z, Made CpxPieces R.ap q z ∧ x = leBytes 4 3 ++ (y ++ z)
  | .noProof, x => x = leBytes 4 4

theorem amountProof_spelt : Spelt (AmountProofPieces R) (readAmountProof bincodeIn R) := by
  intro s a r
  unfold readAmountProof
  simp only [rbind_ok, variant_spelt (table := proofTable) (by decide)]
  constructor
  · rintro ⟨i, t, ⟨hi, rfl⟩, h⟩
    simp only [proofTable, List.length_cons, List.length_nil] at hi
    match i, h with
    | 0, h =>
      simp only [rbind_ok, rpure_ok, leaf_spelt _ _ _ _] at h
      obtain ⟨p, _, ⟨x1, h1, rfl⟩, rfl, rfl⟩ := h
      exact ⟨_, ⟨x1, h1, rfl⟩, by simp only [List.append_assoc]⟩
    | 1, h =>
      simp only [rbind_ok, rpure_ok, range_spelt _ _ _ _] at h
      obtain ⟨p, _, ⟨x1, h1, rfl⟩, rfl, rfl⟩ := h
      exact ⟨_, ⟨x1, h1, rfl⟩, by simp only [List.append_assoc]⟩
    | 2, h =>
      simp only [rbind_ok, rpure_ok, made_spelt cpx_spelt R.ap _ _ _] at h
      obtain ⟨p, _, ⟨x1, h1, rfl⟩, rfl, rfl⟩ := h
      exact ⟨_, ⟨x1, h1, rfl⟩, by simp only [List.append_assoc]⟩
    | 3, h =>
      simp only [rbind_ok, rpure_ok, bincode_tuple_ok, range_spelt _ _ _ _, made_spelt cpx_spelt R.ap _ _ _] at h
      obtain ⟨_, _, rfl, p, _, ⟨x1, h1, rfl⟩, q, _, ⟨x2, h2, rfl⟩, rfl, rfl⟩ := h
      exact ⟨_, ⟨x1, h1, x2, h2, rfl⟩, by simp only [List.append_assoc]⟩
    | 4, h =>
      obtain ⟨rfl, rfl⟩ := rpure_ok.mp h
      exact ⟨_, rfl, rfl⟩
    | k + 5, _ => omega
  · rintro ⟨x, hx, rfl⟩
    cases a with
    | assetMix p =>
      obtain ⟨y, hy, rfl⟩ := hx
      refine ⟨0, _, ⟨by decide, List.append_assoc _ _ _⟩, ?_⟩
      simp only [rbind_ok, rpure_ok, leaf_spelt _ _ _ _]
      exact ⟨_, _, ⟨y, hy, rfl⟩, rfl, rfl⟩
    | confAmount p =>
      obtain ⟨y, hy, rfl⟩ := hx
      refine ⟨1, _, ⟨by decide, List.append_assoc _ _ _⟩, ?_⟩
      simp only [rbind_ok, rpure_ok, range_spelt _ _ _ _]
      exact ⟨_, _, ⟨y, hy, rfl⟩, rfl, rfl⟩
    | confAsset p =>
      obtain ⟨y, hy, rfl⟩ := hx
      refine ⟨2, _, ⟨by decide, List.append_assoc _ _ _⟩, ?_⟩
      simp only [rbind_ok, rpure_ok, made_spelt cpx_spelt R.ap _ _ _]
      exact ⟨_, _, ⟨y, hy, rfl⟩, rfl, rfl⟩
    | confAll p q =>
      obtain ⟨y, hy, z, hz, rfl⟩ := hx
      refine ⟨3, _, ⟨by decide, List.append_assoc _ _ _⟩, ?_⟩
      simp only [rbind_ok, rpure_ok, bincode_tuple_ok, range_spelt _ _ _ _, made_spelt cpx_spelt R.ap _ _ _]
      exact ⟨(), _, rfl, _, _, ⟨y, hy, List.append_assoc _ _ _⟩, _, _, ⟨z, hz, rfl⟩, rfl, rfl⟩
    | noProof =>
      cases hx
      exact ⟨4, _, ⟨by decide, rfl⟩, rfl⟩

/-- the identity proofs of the records on one side -/
def IdentityPieces : List (List (Option S.IPf)) → Bytes → Prop := Pieces (Pieces (Maybe (Made CacPieces R.ipf)))

theorem identity_spelt : Spelt (IdentityPieces R) (readIdentity bincodeIn R) := vec_spelt (vec_spelt (option_spelt (made_spelt cac_spelt R.ipf)))

/-- C115, for any codecs, in particular those of the library: Which byte strings are read as a given transfer.  A note in which an output has
an owner's memo is read from no byte string.  The kinds and the lengths have one spelling; all other bytes are texts of public amounts, public
asset types, and spellings of keys, commitments, proofs, ciphertexts and signatures, and each of these may be replaced by any other that its
codec takes for the same value.  Missing for C115: that the codecs take one byte string for a value (`C115_transfer_violated`). -/
theorem C115_transfer_pieces_partial (s r : Bytes) (n : XfrNote S) : readXfrNote bincodeIn R s = .ok (n, r) ↔
    ∃ ins, Pieces (BarPieces R) n.body.inputs ins ∧ ∃ outs, Pieces (BarPieces R) n.body.outputs outs ∧
    ∃ proof, AmountProofPieces R n.body.amountProof proof ∧ ∃ tracing, Pieces (Made PegPieces R.tpf) n.body.tracingProofs tracing ∧
    ∃ idIn, IdentityPieces R n.body.inputsIdentityProofs idIn ∧ ∃ idOut, IdentityPieces R n.body.outputsIdentityProofs idOut ∧
    ∃ tracers, Pieces (Pieces (TracerPieces R)) n.body.tracingMemos tracers ∧
    ∃ owners, Pieces (fun m x => m = none ∧ x = [0]) n.body.ownersMemos owners ∧ ∃ sigs, Pieces (Piece R.sg) n.signatures sigs ∧
      s = ins ++ (outs ++ (proof ++ (tracing ++ (idIn ++ (idOut ++ (tracers ++ (owners ++ (sigs ++ r)))))))) := by
  simp only [readXfrNote, readXfrBody, rbind_ok, rpure_ok, bincode_tuple_ok, vec_spelt (bar_spelt R) _ _ _, amountProof_spelt R _ _ _,
    vec_spelt (made_spelt peg_spelt R.tpf) _ _ _, identity_spelt R _ _ _, vec_spelt (vec_spelt (tracer_spelt R)) _ _ _,
    vec_spelt (ownerMemo_spelt R) _ _ _, vec_spelt (leaf_spelt R.sg) _ _ _]
  constructor
  · rintro ⟨_, _, rfl, _, _, ⟨_, _, rfl, _, _, ⟨x1, h1, rfl⟩, _, _, ⟨x2, h2, rfl⟩, _, _, rfl, _, _, ⟨x3, h3, rfl⟩, _, _, rfl, _, _, ⟨x4, h4, rfl⟩,
      _, _, ⟨x5, h5, rfl⟩, _, _, ⟨x6, h6, rfl⟩, _, _, ⟨x7, h7, rfl⟩, _, _, ⟨x8, h8, rfl⟩, rfl, rfl⟩, _, _, rfl, _, _, ⟨x9, h9, rfl⟩, rfl, rfl⟩
    exact ⟨x1, h1, x2, h2, x3, h3, x4, h4, x5, h5, x6, h6, x7, h7, x8, h8, x9, h9, rfl⟩
  · rintro ⟨x1, h1, x2, h2, x3, h3, x4, h4, x5, h5, x6, h6, x7, h7, x8, h8, x9, h9, rfl⟩
    exact ⟨(), _, rfl, _, _, ⟨(), _, rfl, _, _, ⟨x1, h1, rfl⟩, _, _, ⟨x2, h2, rfl⟩, (), _, rfl, _, _, ⟨x3, h3, rfl⟩, (), _, rfl,
      _, _, ⟨x4, h4, rfl⟩, _, _, ⟨x5, h5, rfl⟩, _, _, ⟨x6, h6, rfl⟩, _, _, ⟨x7, h7, rfl⟩, _, _, ⟨x8, h8, rfl⟩, rfl, rfl⟩, (), _, rfl,
      _, _, ⟨x9, h9, rfl⟩, rfl, rfl⟩

/-- C115: hence the records on the two sides, the proofs and the memos can be respelled one by one: here, the inputs -/
theorem C115_respell_inputs_partial (s r : Bytes) (n : XfrNote S) (h : readXfrNote bincodeIn R s = .ok (n, r)) :
    ∃ ins rest, s = ins ++ rest ∧ ∀ x, Pieces (BarPieces R) n.body.inputs x → readXfrNote bincodeIn R (x ++ rest) = .ok (n, r) := by
  obtain ⟨ins, -, h'⟩ := (C115_transfer_pieces_partial R s r n).mp h
  obtain ⟨x2, h2, x3, h3, x4, h4, x5, h5, x6, h6, x7, h7, x8, h8, x9, h9, rfl⟩ := h'
  exact ⟨ins, _, rfl, fun x hx =>
    (C115_transfer_pieces_partial R _ r n).mpr ⟨x, hx, x2, h2, x3, h3, x4, h4, x5, h5, x6, h6, x7, h7, x8, h8, x9, h9, rfl⟩⟩

end

end Verif.Serde
