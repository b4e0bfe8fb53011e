import Verif.Serde.Exact

/-!
C115 without a condition on the codecs: which bincode strings are read as a given anonymous transfer, whatever the codecs of scalars, points
and proofs are, in particular those of the library, which accept more than they write.
-/

namespace Verif.Serde

open Verif.Anon (FoldInst)

/-- the reader accepts exactly the strings that `E` allows for a value, and stops behind them -/
def Spelt {α : Type} (E : α → Bytes → Prop) (rd : Reader α) : Prop := ∀ s a r, rd s = .ok (a, r) ↔ ∃ x, E a x ∧ s = x ++ r

/-- a length on eight bytes and as many bytes, which the codec `p` takes for the value -/
def Piece {α : Type} (p : Bytes → Res α) (a : α) (x : Bytes) : Prop := ∃ b, b.length < 2 ^ 64 ∧ p b = .ok a ∧ x = leBytes 8 b.length ++ b

/-- a number on eight bytes and as many elements -/
def Pieces {α : Type} (E : α → Bytes → Prop) (l : List α) (x : Bytes) : Prop :=
  l.length < 2 ^ 64 ∧ ∃ xs, List.Forall₂ E l xs ∧ x = leBytes 8 l.length ++ xs.flatten

theorem readLE_spelt (s : Bytes) (n : Nat) (r : Bytes) : readLE 8 s = .ok (n, r) ↔ n < 2 ^ 64 ∧ s = leBytes 8 n ++ r := by
  rw [readLE_ok]
  constructor
  · rintro ⟨b, hb, rfl, rfl⟩
    have := ofLE_lt b
    rw [hb] at this
    exact ⟨by omega, by rw [← hb, leBytes_ofLE]⟩
  · rintro ⟨h, rfl⟩
    exact ⟨leBytes 8 n, leBytes_length _ _, ofLE_leBytes_of_lt (by omega), rfl⟩

theorem bytes_spelt : Spelt (Piece .ok) bincodeIn.bytes := by
  intro s a r
  simp only [bincodeIn, rbind_ok, readLE_spelt, takeBytes_ok]
  constructor
  · rintro ⟨n, t, ⟨h1, rfl⟩, rfl, rfl⟩
    exact ⟨_, ⟨a, h1, rfl, rfl⟩, by rw [List.append_assoc]⟩
  · rintro ⟨x, ⟨b, h1, e, rfl⟩, rfl⟩
    cases e
    exact ⟨_, _, ⟨h1, List.append_assoc _ _ _⟩, rfl, rfl⟩

theorem leaf_spelt {α : Type} (p : Bytes → Res α) : Spelt (Piece p) (readLeaf bincodeIn p) := by
  intro s a r
  simp only [readLeaf, rbind_ok, lift_ok_iff, bytes_spelt _ _ _]
  constructor
  · rintro ⟨b, t, ⟨x, ⟨c, h1, e, rfl⟩, rfl⟩, h2, rfl⟩
    cases e
    exact ⟨_, ⟨_, h1, h2, rfl⟩, rfl⟩
  · rintro ⟨x, ⟨b, h1, h2, rfl⟩, rfl⟩
    exact ⟨b, r, ⟨_, ⟨b, h1, rfl, rfl⟩, rfl⟩, h2, rfl⟩

theorem vec_spelt {α : Type} {E : α → Bytes → Prop} {rd : Reader α} (h : Spelt E rd) : Spelt (Pieces E) (readVec bincodeIn rd) := by
  have key : ∀ n s (l : List α) r, readN rd n s = .ok (l, r) ↔ l.length = n ∧ ∃ xs, List.Forall₂ E l xs ∧ s = xs.flatten ++ r := by
    intro n
    induction n with
    | zero =>
      intro s l r
      simp only [readN, rpure_ok]
      constructor
      · rintro ⟨rfl, rfl⟩
        exact ⟨rfl, [], .nil, rfl⟩
      · rintro ⟨hl, xs, hx, rfl⟩
        obtain rfl := List.length_eq_zero_iff.mp hl
        cases hx
        exact ⟨rfl, rfl⟩
    | succ n ih =>
      intro s l r
      simp only [readN, rbind_ok, rpure_ok, h _ _ _, ih]
      constructor
      · rintro ⟨a, t, ⟨x, hx, rfl⟩, l', t', ⟨rfl, xs, hxs, rfl⟩, rfl, rfl⟩
        exact ⟨rfl, x :: xs, .cons hx hxs, by rw [List.flatten_cons, List.append_assoc]⟩
      · rintro ⟨hl, xs, hx, rfl⟩
        cases hx with
        | nil => cases hl
        | cons hx hxs =>
          exact ⟨_, _, ⟨_, hx, by rw [List.flatten_cons, List.append_assoc]⟩, _, _, ⟨Nat.succ.inj hl, _, hxs, rfl⟩, rfl, rfl⟩
  intro s l r
  simp only [readVec, rbind_ok]
  have e : bincodeIn.seq = readLE 8 := rfl
  simp only [e, readLE_spelt, key]
  constructor
  · rintro ⟨n, t, ⟨h1, rfl⟩, rfl, xs, hx, rfl⟩
    exact ⟨_, ⟨h1, xs, hx, rfl⟩, (List.append_assoc _ _ _).symm⟩
  · rintro ⟨x, ⟨h1, xs, hx, rfl⟩, rfl⟩
    exact ⟨_, _, ⟨h1, List.append_assoc _ _ _⟩, rfl, xs, hx, rfl⟩

theorem spelt_of_exact {α : Type} {enc : α → Bytes} {rd : Reader α} (h : Exact enc rd) (h' : ReadsAll enc rd) :
    Spelt (fun a x => x = enc a) rd := by
  intro s a r
  constructor
  · intro hs
    exact ⟨_, rfl, h _ _ _ hs⟩
  · rintro ⟨x, rfl, rfl⟩
    exact h' a r

theorem u64_spelt : Spelt (fun a x => x = leBytes 8 a.toNat) bincodeIn.u64 := spelt_of_exact exact_u64 bincode_paired.u64

theorem u32_spelt : Spelt (fun a x => x = leBytes 4 a.toNat) bincodeIn.u32 := spelt_of_exact exact_u32 bincode_paired.u32

theorem u8_spelt : Spelt (fun a x => x = [a]) bincodeIn.u8 := spelt_of_exact exact_u8 bincode_paired.u8

/-! ### Parts -/

/-- a proof, whose eight fields are byte strings and lists of such -/
def PlonkPieces (w : WPlonk) (x : Bytes) : Prop :=
  ∃ x1, Pieces (Piece .ok) w.cmW x1 ∧ ∃ x2, Pieces (Piece .ok) w.cmT x2 ∧ ∃ x3, Piece .ok w.cmZ x3 ∧ ∃ x4, Pieces (Piece .ok) w.wEvals x4 ∧
    ∃ x5, Piece .ok w.zEval x5 ∧ ∃ x6, Pieces (Piece .ok) w.sEvals x6 ∧ ∃ x7, Piece .ok w.open1 x7 ∧ ∃ x8, Piece .ok w.open2 x8 ∧
    x = x1 ++ (x2 ++ (x3 ++ (x4 ++ (x5 ++ (x6 ++ (x7 ++ x8))))))

theorem plonk_spelt : Spelt PlonkPieces (readPlonk bincodeIn) := by
  intro s a r
  simp only [readPlonk, rbind_ok, rpure_ok, bincode_tuple_ok, bytes_spelt _ _ _, vec_spelt bytes_spelt _ _ _]
  constructor
  · rintro ⟨_, _, rfl, _, _, ⟨x1, h1, rfl⟩, _, _, ⟨x2, h2, rfl⟩, _, _, ⟨x3, h3, rfl⟩, _, _, ⟨x4, h4, rfl⟩, _, _, ⟨x5, h5, rfl⟩, _, _, ⟨x6, h6, rfl⟩,
      _, _, ⟨x7, h7, rfl⟩, _, _, ⟨x8, h8, rfl⟩, rfl, rfl⟩
    exact ⟨_, ⟨x1, h1, x2, h2, x3, h3, x4, h4, x5, h5, x6, h6, x7, h7, x8, h8, rfl⟩, by simp only [List.append_assoc]⟩
  · rintro ⟨_, ⟨x1, h1, x2, h2, x3, h3, x4, h4, x5, h5, x6, h6, x7, h7, x8, h8, rfl⟩, rfl⟩
    simp only [List.append_assoc]
    exact ⟨(), _, rfl, _, _, ⟨x1, h1, rfl⟩, _, _, ⟨x2, h2, rfl⟩, _, _, ⟨x3, h3, rfl⟩, _, _, ⟨x4, h4, rfl⟩, _, _, ⟨x5, h5, rfl⟩, _, _, ⟨x6, h6, rfl⟩,
      _, _, ⟨x7, h7, rfl⟩, _, _, ⟨x8, h8, rfl⟩, rfl, rfl⟩

/-- a value that is made from what was read -/
def Made {α β : Type} (E : β → Bytes → Prop) (p : β → Res α) (a : α) (x : Bytes) : Prop := ∃ w, E w x ∧ p w = .ok a

theorem made_spelt {α β : Type} {E : β → Bytes → Prop} {rd : Reader β} (h : Spelt E rd) (p : β → Res α) : Spelt (Made E p) (readMap rd p) := by
  intro s a r
  simp only [readMap, rbind_ok, lift_ok_iff, h _ _ _]
  constructor
  · rintro ⟨w, t, ⟨x, hx, rfl⟩, hp, rfl⟩
    exact ⟨x, ⟨w, hx, hp⟩, rfl⟩
  · rintro ⟨x, ⟨w, hx, hp⟩, rfl⟩
    exact ⟨w, r, ⟨x, hx, rfl⟩, hp, rfl⟩

/-- two values -/
def Both {α β : Type} (E : α → Bytes → Prop) (D : β → Bytes → Prop) (a : α × β) (x : Bytes) : Prop :=
  ∃ x1, E a.1 x1 ∧ ∃ x2, D a.2 x2 ∧ x = x1 ++ x2

section
variable {K Pf : Type} (blsR : Bytes → Res K) (pfR : WPlonk → Res Pf) {P : SimFr.Params} {G Mp : Type} (fptR : Bytes → Res G)
  (fscR : Bytes → Res (ZMod P.r)) (mulR : Bytes → Res Mp)

/-- a delegated Schnorr proof -/
def SchnorrPieces {E : Type} (scR : Bytes → Res E) (p : DelegatedSchnorr.Proof E G K) (x : Bytes) : Prop :=
  ∃ x1, Piece blsR p.comm x1 ∧ ∃ x2, Pieces (Piece fptR) p.randomizers x2 ∧ ∃ x3, Pieces (Both (Piece scR) (Piece scR)) p.responses x3 ∧
    x = x1 ++ (x2 ++ x3)

theorem schnorr_spelt {E : Type} (scR : Bytes → Res E) : Spelt (SchnorrPieces blsR fptR scR) (readSchnorr bincodeIn blsR fptR scR) := by
  have hpair : Spelt (Both (Piece scR) (Piece scR)) (do
      bincodeIn.tuple 2
      let a ← readLeaf bincodeIn scR
      let b ← readLeaf bincodeIn scR
      pure (a, b)) := by
    intro s a r
    simp only [rbind_ok, rpure_ok, bincode_tuple_ok, leaf_spelt _ _ _ _]
    constructor
    · rintro ⟨_, _, rfl, _, _, ⟨x1, h1, rfl⟩, _, _, ⟨x2, h2, rfl⟩, rfl, rfl⟩
      exact ⟨_, ⟨x1, h1, x2, h2, rfl⟩, (List.append_assoc _ _ _).symm⟩
    · rintro ⟨_, ⟨x1, h1, x2, h2, rfl⟩, rfl⟩
      exact ⟨(), _, rfl, _, _, ⟨x1, h1, List.append_assoc _ _ _⟩, _, _, ⟨x2, h2, rfl⟩, rfl, rfl⟩
  intro s a r
  unfold readSchnorr
  simp only [rbind_ok, rpure_ok, bincode_tuple_ok, bincode_unit_ok, leaf_spelt _ _ _ _, vec_spelt (leaf_spelt _) _ _ _]
  constructor
  · rintro ⟨_, _, rfl, _, _, ⟨x1, h1, rfl⟩, _, _, ⟨x2, h2, rfl⟩, _, _, h3, _, _, rfl, rfl, rfl⟩
    obtain ⟨x3, k3, rfl⟩ := (vec_spelt hpair _ _ _).mp h3
    exact ⟨_, ⟨x1, h1, x2, h2, x3, k3, rfl⟩, by simp only [List.append_assoc]⟩
  · rintro ⟨_, ⟨x1, h1, x2, h2, x3, h3, rfl⟩, rfl⟩
    exact ⟨(), _, rfl, _, _, ⟨x1, h1, by simp only [List.append_assoc]⟩, _, _, ⟨x2, h2, rfl⟩, _, _, (vec_spelt hpair _ _ _).mpr ⟨x3, h3, rfl⟩,
      (), _, rfl, rfl, rfl⟩

/-- the part of a note that ties the anonymous key to the proof -/
def FoldPieces (f : FoldInst P K G Mp) (x : Bytes) : Prop :=
  ∃ x1, SchnorrPieces blsR fptR fscR f.schnorr x1 ∧ ∃ x2, Pieces (Piece fptR) f.coms x2 ∧ ∃ x3, Piece mulR f.mul x3 ∧ x = x1 ++ (x2 ++ x3)

theorem fold_spelt : Spelt (FoldPieces blsR fptR fscR mulR) (readFold bincodeIn blsR fptR fscR mulR) := by
  intro s a r
  simp only [readFold, rbind_ok, rpure_ok, bincode_tuple_ok, schnorr_spelt blsR fptR fscR _ _ _, leaf_spelt mulR _ _ _,
    vec_spelt (leaf_spelt fptR) _ _ _]
  constructor
  · rintro ⟨_, _, rfl, _, _, ⟨x1, h1, rfl⟩, _, _, ⟨x2, h2, rfl⟩, _, _, ⟨x3, h3, rfl⟩, rfl, rfl⟩
    exact ⟨_, ⟨x1, h1, x2, h2, x3, h3, rfl⟩, by simp only [List.append_assoc]⟩
  · rintro ⟨_, ⟨x1, h1, x2, h2, x3, h3, rfl⟩, rfl⟩
    exact ⟨(), _, rfl, _, _, ⟨x1, h1, by simp only [List.append_assoc]⟩, _, _, ⟨x2, h2, rfl⟩, _, _, ⟨x3, h3, rfl⟩, rfl, rfl⟩

/-- the memo of an anonymous output -/
def AMemoPieces {A : Type} (apkR : Bytes → Res A) (m : Anon.AMemo A) (x : Bytes) : Prop :=
  ∃ x1, Piece apkR m.point x1 ∧ ∃ x2, Pieces (fun b y => y = [b]) m.ctext x2 ∧ x = x1 ++ x2

theorem amemo_spelt {A : Type} (apkR : Bytes → Res A) : Spelt (AMemoPieces apkR) (readAMemo bincodeIn apkR) := by
  intro s a r
  simp only [readAMemo, rbind_ok, rpure_ok, bincode_tuple_ok, leaf_spelt _ _ _ _, vec_spelt u8_spelt _ _ _]
  constructor
  · rintro ⟨_, _, rfl, _, _, ⟨x1, h1, rfl⟩, _, _, ⟨x2, h2, rfl⟩, rfl, rfl⟩
    exact ⟨_, ⟨x1, h1, x2, h2, rfl⟩, (List.append_assoc _ _ _).symm⟩
  · rintro ⟨_, ⟨x1, h1, x2, h2, rfl⟩, rfl⟩
    exact ⟨(), _, rfl, _, _, ⟨x1, h1, List.append_assoc _ _ _⟩, _, _, ⟨x2, h2, rfl⟩, rfl, rfl⟩

theorem abar_spelt : Spelt (Piece blsR) (readAbar bincodeIn blsR) := by
  intro s a r
  simp only [readAbar, rbind_ok, bincode_tuple_ok, leaf_spelt _ _ _ _]
  constructor
  · rintro ⟨_, _, rfl, h⟩
    exact h
  · intro h
    exact ⟨(), _, rfl, h⟩

/-- C115, for any codecs, in particular those of the library: Which byte strings are read as a given anonymous transfer.  The lengths, the
version, the fee and the texts of the memos have one spelling; all other bytes are spellings of scalars, points and proofs, and each of
these may be replaced by any other that its codec takes for the same value.  Missing for C115: that the codecs of the library take one byte
string for a value (`C115_anonymous_transfer_violated`). -/
theorem C115_anonymous_transfer_pieces_partial {A : Type} (apkR : Bytes → Res A) (s r : Bytes) (n : Anon.XfrNote P K A Pf G Mp) :
    readAXfrNote bincodeIn blsR pfR fptR fscR mulR apkR s = .ok (n, r) ↔
      ∃ ins, Pieces (Piece blsR) n.body.inputs ins ∧ ∃ outs, Pieces (Piece blsR) n.body.outputs outs ∧ ∃ root, Piece blsR n.body.root root ∧
      ∃ memos, Pieces (AMemoPieces apkR) n.body.memos memos ∧ ∃ proof, Made PlonkPieces pfR n.proof proof ∧
      ∃ fold, FoldPieces blsR fptR fscR mulR n.folding fold ∧
        s = ins ++ (outs ++ (root ++ (leBytes 8 n.body.version.toNat ++ (leBytes 4 n.body.fee.toNat ++ (memos ++ (proof ++ (fold ++ r))))))) := by
  simp only [readAXfrNote, rbind_ok, rpure_ok, bincode_tuple_ok, vec_spelt (leaf_spelt blsR) _ _ _, vec_spelt (abar_spelt blsR) _ _ _,
    leaf_spelt blsR _ _ _, u64_spelt _ _ _, u32_spelt _ _ _, vec_spelt (amemo_spelt apkR) _ _ _, made_spelt plonk_spelt pfR _ _ _,
    fold_spelt blsR fptR fscR mulR _ _ _]
  constructor
  · rintro ⟨_, _, rfl, _, _, rfl, _, _, ⟨x1, h1, rfl⟩, _, _, ⟨x2, h2, rfl⟩, _, _, ⟨x3, h3, rfl⟩, _, _, ⟨_, rfl, rfl⟩, _, _, ⟨_, rfl, rfl⟩,
      _, _, ⟨x4, h4, rfl⟩, _, _, ⟨x5, h5, rfl⟩, _, _, ⟨x6, h6, rfl⟩, rfl, rfl⟩
    exact ⟨x1, h1, x2, h2, x3, h3, x4, h4, x5, h5, x6, h6, rfl⟩
  · rintro ⟨x1, h1, x2, h2, x3, h3, x4, h4, x5, h5, x6, h6, rfl⟩
    exact ⟨(), _, rfl, (), _, rfl, _, _, ⟨x1, h1, rfl⟩, _, _, ⟨x2, h2, rfl⟩, _, _, ⟨x3, h3, rfl⟩, _, _, ⟨_, rfl, rfl⟩, _, _, ⟨_, rfl, rfl⟩,
      _, _, ⟨x4, h4, rfl⟩, _, _, ⟨x5, h5, rfl⟩, _, _, ⟨x6, h6, rfl⟩, rfl, rfl⟩

end

/-- C115: a spelling of a scalar of the pool is a string of at most 32 bytes with the scalar as its value modulo the order -/
theorem C115_scalar_piece_partial (a : ZMod Codec.bls.q) (x : Bytes) :
    Piece Codec.bls.fromBytes a x ↔ ∃ b : Bytes, b.length ≤ 32 ∧ (ofLE b : ZMod Codec.bls.q) = a ∧ x = leBytes 8 b.length ++ b := by
  constructor
  · rintro ⟨b, -, h, rfl⟩
    unfold Codec.Ark.fromBytes at h
    split_ifs at h with hb
    exact ⟨b, by omega, Res.ok.inj h, rfl⟩
  · rintro ⟨b, hb, rfl, rfl⟩
    refine ⟨b, by omega, ?_, rfl⟩
    unfold Codec.Ark.fromBytes
    rw [if_neg (by omega)]

end Verif.Serde
