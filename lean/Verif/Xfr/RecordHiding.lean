import Verif.Xfr.Record

/-!
C92: the commitments of a confidential record hide the amount and the asset type.

The blinding factors are hashes of the shared point (`OwnerMemo::calc_amount_blinds`, `calc_asset_type_blind`,
api/src/xfr/structs.rs l.537-547).  With the hash as a random oracle: for every amount and asset type and all three group
elements there is exactly one choice of the three hashes of the shared point for which the builder makes a record with these
elements as its commitments.  Uniform hashes therefore give uniform commitments, whatever is committed to.
-/

namespace Verif.Xfr

open Spec

variable {S : Types} [Field S.F] [AddCommGroup S.G] [Module S.F S.G]
variable {E K : Type} [AddCommGroup E] [AddCommGroup K] (R : RecExt S E K)

/-! ### Specification -/

/-- the same primitives with another hash function for the blinding factors -/
def RecExt.withHash (hash : Bytes → String → S.F) : RecExt S E K := { R with hashScalar := hash }

/-- The hash gives these three values at the shared point: for the lower limb of the amount, for its upper limb and for the
asset type. -/
def Answers (hash : Bytes → String → S.F) (sh : Bytes) (h : S.F × S.F × S.F) : Prop :=
  hash sh "amount_low" = h.1 ∧ hash sh "amount_high" = h.2.1 ∧ hash sh "asset_type" = h.2.2

/-- The blinding generator generates the group: each element is exactly one multiple of it. -/
def BlindGen (X : Ext S) : Prop := Function.Bijective (fun r : S.F => r • X.Bb)

/-! ### Lemmas -/

omit [Field S.F] [AddCommGroup S.G] [Module S.F S.G] in
theorem memo_withHash (hash : Bytes → String → S.F) (r : Nat) (rnd : EncRand)
    (pk : PubKey R.toKeyPrims) (msg : Bytes) : (R.withHash hash).memo r rnd pk msg = R.memo r rnd pk msg := by
  cases pk <;> rfl

theorem commit_unique (X : Ext S) (hX : BlindGen X) (v : S.F) (g : S.G) : ∃! b : S.F, X.commit v b = g := by
  obtain ⟨b, hb⟩ := hX.2 (g - v • X.B)
  refine ⟨b, ?_, fun b' hb' => ?_⟩
  · simp only at hb
    show v • X.B + b • X.Bb = g
    rw [hb]; abel
  · refine hX.1 ?_
    simp only at hb ⊢
    have : v • X.B + b' • X.Bb = g := hb'
    rw [hb, ← this]; abel

omit [Field S.F] [AddCommGroup S.G] [Module S.F S.G] in
/-- a hash with given values at a point -/
theorem exists_hash (sh : Bytes) (h : S.F × S.F × S.F) : ∃ hash, Answers (S := S) hash sh h :=
  ⟨fun _ l => if l = "amount_low" then h.1 else if l = "amount_high" then h.2.1 else h.2.2, by
    refine ⟨?_, ?_, ?_⟩ <;> simp⟩

omit [Field S.F] [Module S.F S.G] in
theorem compress_inj (X : Ext S) (henc : Encoding X) (g g' : S.G) (e : X.compress g = X.compress g') : g = g' := by
  have := henc.dec_comp g
  rw [e, henc.dec_comp] at this
  exact (Option.some_injective _ this).symm

omit [Field S.F] [AddCommGroup S.G] [Module S.F S.G] in
/-- memos are made for keys of the first two kinds -/
theorem memo_succeeds (hR : RecLaws R) (addr : R.ScPK → Addr) (r : Nat) (rnd : EncRand)
    (sk : SecKey R.toKeyPrims) (hk : ∀ k, sk ≠ .address k) (hg : ∀ key msg, ∃ c, R.gcmEnc key msg = some c) (msg : Bytes) :
    ∃ m sh, R.memo r rnd (R.pubOf addr sk) msg = .ok (m, sh) := by
  have henc := C38_encryption_succeeds _ hR.memo addr rnd msg
  unfold RecExt.memo
  cases sk with
  | ed25519 k =>
    obtain ⟨lock, hl⟩ := henc.1 k
    rw [hl]
    simp [MemoPrims.pubOf, RecExt.randomPoint, RecExt.compressedPoint, RecExt.sharedPoint, hR.memo.ed_pub,
      hR.memo.ed_len, hR.memo.ed_rt]
  | secp256k1 k =>
    obtain ⟨lock, hl⟩ := henc.2 (fun key => hg key msg) k
    rw [hl]
    simp [MemoPrims.pubOf, RecExt.randomPoint, RecExt.compressedPoint, RecExt.sharedPoint, hR.memo.k_rt]
  | address k => exact absurd rfl (hk k)

/-! ### C92 -/

/-- **C92.**  A Pedersen commitment hides its value: for each value exactly one blinding factor gives a given commitment. -/
theorem C92_pedersen (X : Ext S) (hX : BlindGen X) (v v' b : S.F) : ∃! b' : S.F, X.commit v' b' = X.commit v b :=
  commit_unique X hX v' _

/-- **C92.**  The commitments of a record that hides amount and asset type: for any amount and type, all three group elements
are reached by exactly one triple of answers of the hash at the shared point. -/
theorem C92_record_hides (X : Ext S) (henc : Encoding X) (hX : BlindGen X) (r : Nat) (rnd : EncRand) (a : UInt64) (ty : S.AT)
    (pk : S.PK) (m : OwnerMemo) (sh : Bytes)
    (hm : R.memo r rnd (R.pkView pk) (beBytes 8 a.toNat ++ R.atBytes ty) = .ok (m, sh)) (glo ghi gt : S.G) :
    ∃! h : S.F × S.F × S.F, ∀ hash, Answers hash sh h →
      ∃ o, (R.withHash hash).build X r rnd ⟨a, ty, true, true, pk⟩ = .ok (o, some m) ∧
        o.bar = ⟨.conf (X.compress glo) (X.compress ghi), .conf (X.compress gt), pk⟩ := by
  have hb : ∀ hash, (R.withHash hash).build X r rnd ⟨a, ty, true, true, pk⟩ =
      .ok (⟨⟨amountFromBlinds X a ((R.withHash hash).amountBlinds sh), typeFromBlind X ty ((R.withHash hash).typeBlind sh), pk⟩,
        a, (R.withHash hash).amountBlinds sh, ty, (R.withHash hash).typeBlind sh⟩, some m) := by
    intro hash
    unfold RecExt.build
    dsimp only
    have := (memo_withHash R hash r rnd (R.pkView pk) (beBytes 8 a.toNat ++ R.atBytes ty)).trans hm
    simp only [RecExt.withHash] at this ⊢
    rw [this]
  obtain ⟨b1, h1, u1⟩ := commit_unique X hX ((splitU64 a).1.toNat : S.F) glo
  obtain ⟨b2, h2, u2⟩ := commit_unique X hX ((splitU64 a).2.toNat : S.F) ghi
  obtain ⟨b3, h3, u3⟩ := commit_unique X hX (X.asScalar ty) gt
  refine ⟨(b1, b2, b3), ?_, ?_⟩
  · intro hash hh
    refine ⟨_, hb hash, ?_⟩
    obtain ⟨e1, e2, e3⟩ := hh
    simp only at e1 e2 e3
    simp only [amountFromBlinds, typeFromBlind, RecExt.amountBlinds, RecExt.typeBlind, RecExt.withHash, e1, e2, e3, h1, h2, h3]
  · rintro ⟨c1, c2, c3⟩ hc
    obtain ⟨hash, hh⟩ := exists_hash (S := S) sh (c1, c2, c3)
    obtain ⟨o, ho, hbar⟩ := hc hash hh
    obtain ⟨e1, e2, e3⟩ := hh
    simp only at e1 e2 e3
    rw [hb hash] at ho
    simp only [Res.ok.injEq, Prod.mk.injEq, and_true] at ho
    subst ho
    simp only [amountFromBlinds, typeFromBlind, RecExt.amountBlinds, RecExt.typeBlind, RecExt.withHash, e1, e2, e3,
      BlindAssetRecord.mk.injEq, XfrAmount.conf.injEq, XfrAssetType.conf.injEq, and_true] at hbar
    obtain ⟨⟨k1, k2⟩, k3⟩ := hbar
    rw [u1 c1 (compress_inj X henc _ _ k1), u2 c2 (compress_inj X henc _ _ k2), u3 c3 (compress_inj X henc _ _ k3)]

/-- **C92.**  The same for a record that hides only the amount: two answers, for the two limbs. -/
theorem C92_amount_hides (X : Ext S) (henc : Encoding X) (hX : BlindGen X) (r : Nat) (rnd : EncRand) (a : UInt64) (ty : S.AT)
    (pk : S.PK) (m : OwnerMemo) (sh : Bytes) (hm : R.memo r rnd (R.pkView pk) (beBytes 8 a.toNat) = .ok (m, sh))
    (glo ghi : S.G) (z : S.F) :
    ∃! h : S.F × S.F, ∀ hash, Answers hash sh (h.1, h.2, z) →
      ∃ o, (R.withHash hash).build X r rnd ⟨a, ty, true, false, pk⟩ = .ok (o, some m) ∧
        o.bar = ⟨.conf (X.compress glo) (X.compress ghi), .plain ty, pk⟩ := by
  have hb : ∀ hash, (R.withHash hash).build X r rnd ⟨a, ty, true, false, pk⟩ =
      .ok (⟨⟨amountFromBlinds X a ((R.withHash hash).amountBlinds sh), .plain ty, pk⟩,
        a, (R.withHash hash).amountBlinds sh, ty, 0⟩, some m) := by
    intro hash
    unfold RecExt.build
    dsimp only
    have := (memo_withHash R hash r rnd (R.pkView pk) (beBytes 8 a.toNat)).trans hm
    simp only [RecExt.withHash] at this ⊢
    rw [this]
  obtain ⟨b1, h1, u1⟩ := commit_unique X hX ((splitU64 a).1.toNat : S.F) glo
  obtain ⟨b2, h2, u2⟩ := commit_unique X hX ((splitU64 a).2.toNat : S.F) ghi
  refine ⟨(b1, b2), ?_, ?_⟩
  · intro hash hh
    refine ⟨_, hb hash, ?_⟩
    obtain ⟨e1, e2, -⟩ := hh
    simp only at e1 e2
    simp only [amountFromBlinds, RecExt.amountBlinds, RecExt.withHash, e1, e2, h1, h2]
  · rintro ⟨c1, c2⟩ hc
    obtain ⟨hash, hh⟩ := exists_hash (S := S) sh (c1, c2, z)
    obtain ⟨o, ho, hbar⟩ := hc hash hh
    obtain ⟨e1, e2, -⟩ := hh
    simp only at e1 e2
    rw [hb hash] at ho
    simp only [Res.ok.injEq, Prod.mk.injEq, and_true] at ho
    subst ho
    simp only [amountFromBlinds, RecExt.amountBlinds, RecExt.withHash, e1, e2,
      BlindAssetRecord.mk.injEq, XfrAmount.conf.injEq, and_true] at hbar
    rw [u1 c1 (compress_inj X henc _ _ hbar.1), u2 c2 (compress_inj X henc _ _ hbar.2)]

/-- **C92.**  The same for a record that hides only the asset type. -/
theorem C92_type_hides (X : Ext S) (henc : Encoding X) (hX : BlindGen X) (r : Nat) (rnd : EncRand) (a : UInt64) (ty : S.AT)
    (pk : S.PK) (m : OwnerMemo) (sh : Bytes) (hm : R.memo r rnd (R.pkView pk) (R.atBytes ty) = .ok (m, sh))
    (gt : S.G) (z1 z2 : S.F) :
    ∃! h : S.F, ∀ hash, Answers hash sh (z1, z2, h) →
      ∃ o, (R.withHash hash).build X r rnd ⟨a, ty, false, true, pk⟩ = .ok (o, some m) ∧
        o.bar = ⟨.plain a, .conf (X.compress gt), pk⟩ := by
  have hb : ∀ hash, (R.withHash hash).build X r rnd ⟨a, ty, false, true, pk⟩ =
      .ok (⟨⟨.plain a, typeFromBlind X ty ((R.withHash hash).typeBlind sh), pk⟩,
        a, (0, 0), ty, (R.withHash hash).typeBlind sh⟩, some m) := by
    intro hash
    unfold RecExt.build
    dsimp only
    have := (memo_withHash R hash r rnd (R.pkView pk) (R.atBytes ty)).trans hm
    simp only [RecExt.withHash] at this ⊢
    rw [this]
  obtain ⟨b3, h3, u3⟩ := commit_unique X hX (X.asScalar ty) gt
  refine ⟨b3, ?_, ?_⟩
  · intro hash hh
    refine ⟨_, hb hash, ?_⟩
    obtain ⟨-, -, e3⟩ := hh
    simp only at e3
    simp only [typeFromBlind, RecExt.typeBlind, RecExt.withHash, e3, h3]
  · intro c3 hc
    obtain ⟨hash, hh⟩ := exists_hash (S := S) sh (z1, z2, c3)
    obtain ⟨o, ho, hbar⟩ := hc hash hh
    obtain ⟨-, -, e3⟩ := hh
    simp only at e3
    rw [hb hash] at ho
    simp only [Res.ok.injEq, Prod.mk.injEq, and_true] at ho
    subst ho
    simp only [typeFromBlind, RecExt.typeBlind, RecExt.withHash, e3,
      BlindAssetRecord.mk.injEq, XfrAssetType.conf.injEq, and_true, true_and] at hbar
    exact u3 c3 (compress_inj X henc _ _ hbar)

/-! ### The hypotheses can be met -/

/-- the types of the examples of C20 with commitments in a group of dimension one -/
@[reducible] def hidT : Types := { recT with G := ℚ, CG := ℚ }

@[reducible] def hidX : Ext hidT where
  decompress := some
  compress := id
  identityC := 0
  B := 2
  Bb := 3
  asScalar := fun t => (ofLE t.1 : ℚ)
  proveRanges := fun _ _ => none
  batchRanges := fun _ => false
  proveAsset := fun _ _ _ => none
  batchAsset := fun _ => false
  proveMix := fun _ _ => none
  batchMix := fun _ => false
  provePeg := fun _ _ _ _ _ => ()
  batchPeg := fun _ => false
  acVerify := fun _ _ _ _ => false
  ser := fun _ => none
  pkBytes := fun _ => []
  sigVerify := fun _ _ _ => false
  kpPub := fun _ => .address ⟨List.replicate 20 0, rfl⟩
  kpSign := fun _ _ => none

@[reducible] def hidR : RecExt hidT (ZMod 97) (ZMod 101) where
  toMemoPrims := toyPrims
  kOrder := 2 ^ 256
  hashScalar := fun b l => (ofLE b + l.length : ℚ)
  atBytes := fun t => t.1
  atOf := fun b => if h : b.length = 32 then ⟨b, h⟩ else ⟨List.replicate 32 0, rfl⟩
  pkView := id

example : Encoding hidX := ⟨fun _ => rfl, fun _ _ h => (Option.some_injective _ h).symm, rfl⟩

example : BlindGen hidX := by
  constructor
  · intro a b h
    exact mul_right_cancel₀ (by norm_num : (3 : ℚ) ≠ 0) h
  · intro g
    exact ⟨g / 3, by show g / 3 * 3 = g; ring⟩

theorem hidR_laws : RecLaws hidR where
  memo := toyPrims_laws
  order := le_refl _
  scNum_lt := fun s => by
    have h := ofLE_lt s.1
    rw [s.2] at h
    exact lt_of_lt_of_le h (by norm_num)
  at_len := fun t => t.2
  at_rt := fun t => by simp [t.2]

/-- memos are made for the keys of the examples -/
example (sk : SecKey toyKeys) (hk : ∀ k, sk ≠ .address k) (msg : Bytes) :
    ∃ m sh, hidR.memo 12 ⟨List.replicate 32 9, 12⟩ (toyPrims.pubOf (fun _ => ⟨List.replicate 20 0, rfl⟩) sk) msg = .ok (m, sh) :=
  memo_succeeds hidR hidR_laws (fun _ => ⟨List.replicate 20 0, rfl⟩) 12 ⟨List.replicate 32 9, 12⟩ sk hk
    (fun _ _ => ⟨_, rfl⟩) msg

end Verif.Xfr
