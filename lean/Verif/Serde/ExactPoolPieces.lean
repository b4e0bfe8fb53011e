import Verif.Serde.ExactPieces
import Verif.Serde.ExactSpelled

/-!
C115 without a condition on the codecs, continued: which bincode strings are read as the notes that lead into the pool and out of it.
-/

namespace Verif.Serde

open Verif.Xfr Verif.Anon

/-- the number of a variant on four bytes, and what follows -/
theorem variant_spelt {table : List (Bytes × Bool)} (ht : table.length < 2 ^ 32) (s : Bytes) (i : Nat) (r : Bytes) :
    bincodeIn.variant table s = .ok (i, r) ↔ i < table.length ∧ s = leBytes 4 i ++ r := by
  constructor
  · exact bincode_variant_ok
  · rintro ⟨h, rfl⟩
    have e : bincodeIn.variant table = (do
      let i ← readLE 4
      if i < table.length then pure i else refuse : Reader Nat) := rfl
    rw [e, rbind_ok]
    refine ⟨i, r, readLE_ok.mpr ⟨leBytes 4 i, leBytes_length _ _, ofLE_leBytes_of_lt (by omega), rfl⟩, ?_⟩
    rw [if_pos h]
    rfl

section
variable {S : Types} (R : Parse S)

/-- an amount: two commitments, or a text -/
def AmountPieces : XfrAmount S → Bytes → Prop
  | .conf lo hi, x => ∃ x1, Piece R.cg lo x1 ∧ ∃ x2, Piece R.cg hi x2 ∧ x = leBytes 4 0 ++ (x1 ++ x2)
  | .plain a, x => ∃ t, DecimalOf t a ∧ t.length < 2 ^ 64 ∧ x = leBytes 4 1 ++ (leBytes 8 t.length ++ t)

/-- an asset type: a commitment, or 32 bytes -/
def AssetPieces : XfrAssetType S → Bytes → Prop
  | .conf c, x => ∃ x1, Piece R.cg c x1 ∧ x = leBytes 4 0 ++ x1
  | .plain t, x => ∃ b : { b : Bytes // b.length = 32 }, R.at' b = t ∧ x = leBytes 4 1 ++ b.1

/-- a record -/
def BarPieces (b : BlindAssetRecord S) (x : Bytes) : Prop :=
  ∃ x1, AmountPieces R b.amount x1 ∧ ∃ x2, AssetPieces R b.assetType x2 ∧ ∃ x3, Piece R.pk b.publicKey x3 ∧ x = x1 ++ (x2 ++ x3)

theorem amount_spelt : Spelt (AmountPieces R) (readAmount bincodeIn R) := by
  intro s a r
  unfold readAmount
  simp only [rbind_ok, variant_spelt (table := confTable) (by decide)]
  constructor
  · rintro ⟨i, t, ⟨hi, rfl⟩, h⟩
    split_ifs at h with h0
    · subst h0
      simp only [rbind_ok, rpure_ok, bincode_tuple_ok, leaf_spelt _ _ _ _] at h
      obtain ⟨_, _, rfl, lo, _, ⟨x1, h1, rfl⟩, hi', _, ⟨x2, h2, rfl⟩, rfl, rfl⟩ := h
      exact ⟨_, ⟨x1, h1, x2, h2, rfl⟩, by simp only [List.append_assoc]⟩
    · have hi1 : i = 1 := by simp only [confTable, List.length_cons, List.length_nil] at hi; omega
      subst hi1
      simp only [rbind_ok, rpure_ok, lift_ok_iff] at h
      obtain ⟨b, _, h1, a', _, ⟨h2, rfl⟩, rfl, rfl⟩ := h
      obtain ⟨x, ⟨c, h3, e, rfl⟩, rfl⟩ := (bytes_spelt _ _ _).mp (show bincodeIn.bytes _ = _ from h1)
      cases e
      have h4 : parseU64 b = some a' := by
        cases hx : parseU64 b with
        | none => rw [hx] at h2; cases h2
        | some y => rw [hx] at h2; cases h2; rfl
      exact ⟨_, ⟨b, (C98_amount_text b a').mp h4, h3, rfl⟩, by simp only [List.append_assoc]⟩
  · rintro ⟨x, hx, rfl⟩
    cases a with
    | conf lo hi =>
      obtain ⟨x1, h1, x2, h2, rfl⟩ := hx
      refine ⟨0, _, ⟨by decide, List.append_assoc _ _ _⟩, ?_⟩
      rw [if_pos rfl]
      simp only [rbind_ok, rpure_ok, bincode_tuple_ok, leaf_spelt _ _ _ _]
      exact ⟨(), _, rfl, _, _, ⟨x1, h1, List.append_assoc _ _ _⟩, _, _, ⟨x2, h2, rfl⟩, rfl, rfl⟩
    | plain a =>
      obtain ⟨t, h1, h2, rfl⟩ := hx
      refine ⟨1, _, ⟨by decide, List.append_assoc _ _ _⟩, ?_⟩
      rw [if_neg (by decide)]
      simp only [rbind_ok, rpure_ok, lift_ok_iff]
      refine ⟨t, r, ?_, a, r, ⟨?_, rfl⟩, rfl, rfl⟩
      · exact (bytes_spelt _ _ _).mpr ⟨_, ⟨t, h2, rfl, rfl⟩, rfl⟩
      · rw [(C98_amount_text t a).mpr h1]
        rfl

theorem readN_byte (n : Nat) (s b r : Bytes) : readN bincodeIn.u8 n s = .ok (b, r) ↔ b.length = n ∧ s = b ++ r := by
  induction n generalizing s b r with
  | zero =>
    simp only [readN, rpure_ok]
    constructor
    · rintro ⟨rfl, rfl⟩
      exact ⟨rfl, rfl⟩
    · rintro ⟨hl, rfl⟩
      obtain rfl := List.length_eq_zero_iff.mp hl
      exact ⟨rfl, rfl⟩
  | succ n ih =>
    simp only [readN, rbind_ok, rpure_ok, u8_spelt _ _ _, ih]
    constructor
    · rintro ⟨a, t, ⟨x, rfl, rfl⟩, l', t', ⟨rfl, rfl⟩, rfl, rfl⟩
      exact ⟨rfl, rfl⟩
    · rintro ⟨hl, rfl⟩
      cases b with
      | nil => cases hl
      | cons a l => exact ⟨a, _, ⟨_, rfl, rfl⟩, l, r, ⟨Nat.succ.inj hl, rfl⟩, rfl, rfl⟩

theorem array32_spelt : Spelt (fun b x => x = b.1) (readArray32 bincodeIn) := by
  intro s a r
  unfold readArray32
  simp only [rbind_ok, bincode_tuple_ok, readN_byte]
  constructor
  · rintro ⟨_, _, rfl, b, t, ⟨hb, rfl⟩, h⟩
    rw [dif_pos hb] at h
    obtain ⟨rfl, rfl⟩ := rpure_ok.mp h
    exact ⟨_, rfl, rfl⟩
  · rintro ⟨_, rfl, rfl⟩
    refine ⟨(), _, rfl, a.1, r, ⟨a.2, rfl⟩, ?_⟩
    rw [dif_pos a.2]
    rfl

theorem asset_spelt : Spelt (AssetPieces R) (readAssetType bincodeIn R) := by
  intro s a r
  unfold readAssetType
  simp only [rbind_ok, variant_spelt (table := confTable) (by decide)]
  constructor
  · rintro ⟨i, t, ⟨hi, rfl⟩, h⟩
    split_ifs at h with h0
    · subst h0
      simp only [rbind_ok, rpure_ok, leaf_spelt _ _ _ _] at h
      obtain ⟨c, _, ⟨x1, h1, rfl⟩, rfl, rfl⟩ := h
      exact ⟨_, ⟨x1, h1, rfl⟩, by simp only [List.append_assoc]⟩
    · have hi1 : i = 1 := by simp only [confTable, List.length_cons, List.length_nil] at hi; omega
      subst hi1
      simp only [rbind_ok, rpure_ok, array32_spelt _ _ _] at h
      obtain ⟨b, _, ⟨_, rfl, rfl⟩, rfl, rfl⟩ := h
      exact ⟨_, ⟨b, rfl, rfl⟩, by simp only [List.append_assoc]⟩
  · rintro ⟨x, hx, rfl⟩
    cases a with
    | conf c =>
      obtain ⟨x1, h1, rfl⟩ := hx
      refine ⟨0, _, ⟨by decide, List.append_assoc _ _ _⟩, ?_⟩
      rw [if_pos rfl]
      simp only [rbind_ok, rpure_ok, leaf_spelt _ _ _ _]
      exact ⟨_, _, ⟨x1, h1, rfl⟩, rfl, rfl⟩
    | plain t =>
      obtain ⟨b, rfl, rfl⟩ := hx
      refine ⟨1, _, ⟨by decide, List.append_assoc _ _ _⟩, ?_⟩
      rw [if_neg (by decide)]
      simp only [rbind_ok, rpure_ok, array32_spelt _ _ _]
      exact ⟨b, _, ⟨_, rfl, rfl⟩, rfl, rfl⟩

theorem bar_spelt : Spelt (BarPieces R) (readBar bincodeIn R) := by
  intro s a r
  simp only [readBar, rbind_ok, rpure_ok, bincode_tuple_ok, amount_spelt _ _ _ _, asset_spelt _ _ _ _, leaf_spelt _ _ _ _]
  constructor
  · rintro ⟨_, _, rfl, _, _, ⟨x1, h1, rfl⟩, _, _, ⟨x2, h2, rfl⟩, _, _, ⟨x3, h3, rfl⟩, rfl, rfl⟩
    exact ⟨_, ⟨x1, h1, x2, h2, x3, h3, rfl⟩, by simp only [List.append_assoc]⟩
  · rintro ⟨_, ⟨x1, h1, x2, h2, x3, h3, rfl⟩, rfl⟩
    exact ⟨(), _, rfl, _, _, ⟨x1, h1, by simp only [List.append_assoc]⟩, _, _, ⟨x2, h2, rfl⟩, _, _, ⟨x3, h3, rfl⟩, rfl, rfl⟩

/-- bincode can only read the absence of an owner's memo -/
theorem ownerMemo_spelt : Spelt (fun m x => m = none ∧ x = [0]) (readOwnerMemo bincodeIn R) := by
  intro s a r
  constructor
  · intro h
    unfold readOwnerMemo readOption at h
    obtain ⟨b, t, h1, h2⟩ := rbind_ok.mp h
    clear h
    cases b with
    | true =>
      simp only [if_true, readMap, readMemo, rbind_ok] at h2
      obtain ⟨_, _, ⟨_, _, ⟨_, _, _, _, _, h3, _⟩, _⟩, _⟩ := h2
      cases h3
    | false =>
      obtain ⟨rfl, rfl⟩ := rpure_ok.mp h2
      have e : bincodeIn.opt = (do
        let b ← nextByte
        if b = 0 then pure false else if b = 1 then pure true else refuse : Reader Bool) := rfl
      rw [e, rbind_ok] at h1
      obtain ⟨c, t, h3, h4⟩ := h1
      split_ifs at h4 with hc hc'
      · obtain ⟨-, rfl⟩ := rpure_ok.mp h4
        subst hc
        obtain ⟨_, e1, rfl⟩ := (u8_spelt _ _ _).mp (show bincodeIn.u8 _ = _ from h3)
        exact ⟨[0], ⟨rfl, rfl⟩, by rw [e1]⟩
      · cases (rpure_ok.mp h4).1
      · exact (refuse_ok.mp h4).elim
  · rintro ⟨_, ⟨rfl, rfl⟩, rfl⟩
    rfl

/-- the memo of a note into the pool: a point that is not looked at, and a text -/
def AxfrMemoPieces (m : Bytes × Bytes) (x : Bytes) : Prop := m.1.length < 2 ^ 64 ∧ m.2.length < 2 ^ 64 ∧
  x = leBytes 8 m.1.length ++ (m.1 ++ (leBytes 8 m.2.length ++ m.2))

theorem axfrMemo_spelt : Spelt AxfrMemoPieces (readAxfrMemo bincodeIn) := by
  intro s a r
  simp only [readAxfrMemo, rbind_ok, rpure_ok, bincode_tuple_ok, bytes_spelt _ _ _]
  have e : ∀ s b r, readVec bincodeIn bincodeIn.u8 s = .ok (b, r) ↔ b.length < 2 ^ 64 ∧ s = leBytes 8 b.length ++ (b ++ r) := by
    intro s b r
    have e : bincodeIn.seq = readLE 8 := rfl
    simp only [readVec, rbind_ok, e, readLE_spelt, readN_byte]
    constructor
    · rintro ⟨n, t, ⟨h1, rfl⟩, rfl, rfl⟩
      exact ⟨h1, rfl⟩
    · rintro ⟨h1, rfl⟩
      exact ⟨_, _, ⟨h1, rfl⟩, rfl, rfl⟩
  simp only [e]
  constructor
  · rintro ⟨_, _, rfl, b, _, ⟨_, ⟨c, h1, e1, rfl⟩, rfl⟩, d, _, ⟨h2, rfl⟩, rfl, rfl⟩
    cases e1
    exact ⟨_, ⟨h1, h2, rfl⟩, by simp only [List.append_assoc]⟩
  · rintro ⟨_, ⟨h1, h2, rfl⟩, rfl⟩
    exact ⟨(), _, rfl, a.1, _, ⟨_, ⟨a.1, h1, rfl, rfl⟩, by simp only [List.append_assoc]⟩, a.2, r, ⟨h2, rfl⟩, rfl, rfl⟩

variable {K Pf : Type} (blsR : Bytes → Res K) (pfR : WPlonk → Res Pf)

/-- C115, for any codecs: Which byte strings are read as a given note that brings a public record into the pool. -/
theorem C115_ar_to_abar_pieces_partial (s r : Bytes) (n : ArToAbarNote S K Pf) :
    readArToAbarNote bincodeIn R blsR pfR s = .ok (n, r) ↔
      ∃ bar, BarPieces R n.body.input bar ∧ ∃ com, Piece blsR n.body.output com ∧ ∃ proof, Made PlonkPieces pfR n.body.proof proof ∧
      ∃ memo, AxfrMemoPieces n.body.memo memo ∧ ∃ sig, Piece R.sg n.signature sig ∧ s = bar ++ (com ++ (proof ++ (memo ++ (sig ++ r)))) := by
  simp only [readArToAbarNote, readArToAbarBody, rbind_ok, rpure_ok, bincode_tuple_ok, bar_spelt _ _ _ _, abar_spelt _ _ _ _,
    made_spelt plonk_spelt pfR _ _ _, axfrMemo_spelt _ _ _, leaf_spelt _ _ _ _]
  constructor
  · rintro ⟨_, _, rfl, _, _, ⟨_, _, rfl, _, _, ⟨x1, h1, rfl⟩, _, _, ⟨x2, h2, rfl⟩, _, _, ⟨x3, h3, rfl⟩, _, _, ⟨x4, h4, rfl⟩, rfl, rfl⟩,
      _, _, ⟨x5, h5, rfl⟩, rfl, rfl⟩
    exact ⟨x1, h1, x2, h2, x3, h3, x4, h4, x5, h5, rfl⟩
  · rintro ⟨x1, h1, x2, h2, x3, h3, x4, h4, x5, h5, rfl⟩
    exact ⟨(), _, rfl, _, _, ⟨(), _, rfl, _, _, ⟨x1, h1, rfl⟩, _, _, ⟨x2, h2, rfl⟩, _, _, ⟨x3, h3, rfl⟩, _, _, ⟨x4, h4, rfl⟩, rfl, rfl⟩,
      _, _, ⟨x5, h5, rfl⟩, rfl, rfl⟩

/-- C115, for any codecs: The same for the note that brings a record with hidden parts into the pool. -/
theorem C115_bar_to_abar_pieces_partial {Q : SimFr.Params} (ptR : Bytes → Res S.G) (scR : Bytes → Res (ZMod Q.r)) (s r : Bytes)
    (n : BarToAbarNote S Q K Pf) : readBarToAbarNote bincodeIn R blsR pfR ptR scR s = .ok (n, r) ↔
      ∃ bar, BarPieces R n.body.input bar ∧ ∃ com, Piece blsR n.body.output com ∧ ∃ schnorr, SchnorrPieces blsR ptR scR n.body.schnorr schnorr ∧
      ∃ proof, Made PlonkPieces pfR n.body.proof proof ∧ ∃ memo, AxfrMemoPieces n.body.memo memo ∧ ∃ sig, Piece R.sg n.signature sig ∧
        s = bar ++ (com ++ (schnorr ++ (proof ++ (memo ++ (sig ++ r))))) := by
  simp only [readBarToAbarNote, readBarToAbarBody, rbind_ok, rpure_ok, bincode_tuple_ok, bar_spelt _ _ _ _, abar_spelt _ _ _ _,
    schnorr_spelt blsR ptR scR _ _ _, made_spelt plonk_spelt pfR _ _ _, axfrMemo_spelt _ _ _, leaf_spelt _ _ _ _]
  constructor
  · rintro ⟨_, _, rfl, _, _, ⟨_, _, rfl, _, _, ⟨x1, h1, rfl⟩, _, _, ⟨x2, h2, rfl⟩, _, _, rfl, _, _, ⟨x3, h3, rfl⟩, _, _, ⟨x4, h4, rfl⟩,
      _, _, ⟨x5, h5, rfl⟩, rfl, rfl⟩, _, _, ⟨x6, h6, rfl⟩, rfl, rfl⟩
    exact ⟨x1, h1, x2, h2, x3, h3, x4, h4, x5, h5, x6, h6, rfl⟩
  · rintro ⟨x1, h1, x2, h2, x3, h3, x4, h4, x5, h5, x6, h6, rfl⟩
    exact ⟨(), _, rfl, _, _, ⟨(), _, rfl, _, _, ⟨x1, h1, rfl⟩, _, _, ⟨x2, h2, rfl⟩, (), _, rfl, _, _, ⟨x3, h3, rfl⟩, _, _, ⟨x4, h4, rfl⟩,
      _, _, ⟨x5, h5, rfl⟩, rfl, rfl⟩, _, _, ⟨x6, h6, rfl⟩, rfl, rfl⟩

variable {P : SimFr.Params} {G Mp : Type} (fptR : Bytes → Res G) (fscR : Bytes → Res (ZMod P.r)) (mulR : Bytes → Res Mp)

/-- C115, for any codecs: The same for the note that leads out of the pool to a public record; a note with an owner's memo is read from no
byte string at all. -/
theorem C115_abar_to_ar_pieces_partial (s r : Bytes) (n : AbarToArNote S P K Pf G Mp) (v : UInt64) (m : Option S.OM) :
    readAbarToArNote bincodeIn R blsR pfR fptR fscR mulR s = .ok ((n, v, m), r) ↔
      m = none ∧ ∃ nul, Piece blsR n.input nul ∧ ∃ bar, BarPieces R n.output bar ∧ ∃ root, Piece blsR n.root root ∧
      ∃ proof, Made PlonkPieces pfR n.proof proof ∧ ∃ fold, FoldPieces blsR fptR fscR mulR n.folding fold ∧
        s = nul ++ (bar ++ (root ++ (leBytes 8 v.toNat ++ (0 :: (proof ++ (fold ++ r)))))) := by
  simp only [readAbarToArNote, rbind_ok, rpure_ok, bincode_tuple_ok, bar_spelt _ _ _ _, leaf_spelt _ _ _ _, u64_spelt _ _ _,
    ownerMemo_spelt _ _ _ _, made_spelt plonk_spelt pfR _ _ _, fold_spelt blsR fptR fscR mulR _ _ _]
  constructor
  · rintro ⟨_, _, rfl, _, _, rfl, _, _, ⟨x1, h1, rfl⟩, _, _, ⟨x2, h2, rfl⟩, _, _, ⟨x3, h3, rfl⟩, _, _, ⟨_, rfl, rfl⟩, _, _, ⟨_, ⟨rfl, rfl⟩, rfl⟩,
      _, _, ⟨x4, h4, rfl⟩, _, _, ⟨x5, h5, rfl⟩, e, rfl⟩
    cases e
    exact ⟨rfl, x1, h1, x2, h2, x3, h3, x4, h4, x5, h5, rfl⟩
  · rintro ⟨rfl, x1, h1, x2, h2, x3, h3, x4, h4, x5, h5, rfl⟩
    exact ⟨(), _, rfl, (), _, rfl, _, _, ⟨x1, h1, rfl⟩, _, _, ⟨x2, h2, rfl⟩, _, _, ⟨x3, h3, rfl⟩, _, _, ⟨_, rfl, rfl⟩, _, _, ⟨_, ⟨rfl, rfl⟩, rfl⟩,
      _, _, ⟨x4, h4, rfl⟩, _, _, ⟨x5, h5, rfl⟩, rfl, rfl⟩

/-- C115, for any codecs: The same for the note that leads out of the pool to a record with hidden parts. -/
theorem C115_abar_to_bar_pieces_partial {Q : SimFr.Params} (ptR : Bytes → Res S.G) (scR : Bytes → Res (ZMod Q.r)) (s r : Bytes)
    (n : AbarToBarNote S P Q K Pf G Mp) (v : UInt64) (m : Option S.OM) :
    readAbarToBarNote bincodeIn R blsR pfR ptR scR fptR fscR mulR s = .ok ((n, v, m), r) ↔
      m = none ∧ ∃ nul, Piece blsR n.input nul ∧ ∃ bar, BarPieces R n.output bar ∧
      ∃ schnorr, SchnorrPieces blsR ptR scR n.schnorr schnorr ∧ ∃ root, Piece blsR n.root root ∧
      ∃ proof, Made PlonkPieces pfR n.proof proof ∧ ∃ fold, FoldPieces blsR fptR fscR mulR n.folding fold ∧
        s = nul ++ (bar ++ (schnorr ++ (root ++ (leBytes 8 v.toNat ++ (0 :: (proof ++ (fold ++ r))))))) := by
  simp only [readAbarToBarNote, rbind_ok, rpure_ok, bincode_tuple_ok, bar_spelt _ _ _ _, leaf_spelt _ _ _ _, u64_spelt _ _ _,
    schnorr_spelt blsR ptR scR _ _ _, ownerMemo_spelt _ _ _ _, made_spelt plonk_spelt pfR _ _ _, fold_spelt blsR fptR fscR mulR _ _ _]
  constructor
  · rintro ⟨_, _, rfl, _, _, rfl, _, _, ⟨x1, h1, rfl⟩, _, _, ⟨x2, h2, rfl⟩, _, _, ⟨x6, h6, rfl⟩, _, _, ⟨x3, h3, rfl⟩, _, _, ⟨_, rfl, rfl⟩,
      _, _, ⟨_, ⟨rfl, rfl⟩, rfl⟩, _, _, ⟨x4, h4, rfl⟩, _, _, ⟨x5, h5, rfl⟩, e, rfl⟩
    cases e
    exact ⟨rfl, x1, h1, x2, h2, x6, h6, x3, h3, x4, h4, x5, h5, rfl⟩
  · rintro ⟨rfl, x1, h1, x2, h2, x6, h6, x3, h3, x4, h4, x5, h5, rfl⟩
    exact ⟨(), _, rfl, (), _, rfl, _, _, ⟨x1, h1, rfl⟩, _, _, ⟨x2, h2, rfl⟩, _, _, ⟨x6, h6, rfl⟩, _, _, ⟨x3, h3, rfl⟩, _, _, ⟨_, rfl, rfl⟩,
      _, _, ⟨_, ⟨rfl, rfl⟩, rfl⟩, _, _, ⟨x4, h4, rfl⟩, _, _, ⟨x5, h5, rfl⟩, rfl, rfl⟩

end

end Verif.Serde
