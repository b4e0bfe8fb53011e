import Verif.Crypto.ElGamal
import Verif.Xfr.Record

/-!
Property C21: tracer memos (api/src/xfr/asset_tracer.rs).
-/

namespace Verif.Xfr

open ElGamal

/-- The setting: Ristretto points `G` over `F` and BLS12-381 G1 points `H` over `F'` with their base points, the bytes and the
scalar of an asset type, and the X25519 encryption of `MemoPrims`. -/
structure TraceExt (F G F' H AT E K : Type) extends MemoPrims E K where
  gBase : G
  hBase : H
  asScalar : AT → F
  atBytes : AT → Bytes
  atOf : Bytes → AT

/-- What is assumed of it. -/
structure TraceLaws {F G F' H AT E K : Type} [AddCommGroup E] [AddCommGroup K] (T : TraceExt F G F' H AT E K) : Prop where
  memo : MemoLaws T.toMemoPrims
  at_len : ∀ t, (T.atBytes t).length = 32
  at_rt : ∀ t, T.atOf (T.atBytes t) = t

/-- `AssetTracerDecKeys` (structs.rs l.275-282); the X25519 secret key is clamped when it is made -/
structure DecKeys (F F' : Type) where
  data : F
  attrs : F'
  lock : Bytes

/-- `AssetTracerEncKeys` (structs.rs l.264-271) -/
structure EncKeys (G H : Type) where
  data : G
  attrs : H
  lock : Bytes
  deriving DecidableEq

/-- `TracerMemo` (structs.rs) -/
structure FullMemo (G H : Type) where
  encKey : EncKeys G H
  lockAmount : Option (Ct G × Ct G)
  lockType : Option (Ct G)
  lockAttrs : List (Ct H)
  lockInfo : HybridCt

section Defs

variable {F G F' H AT E K : Type} [Field F] [AddCommGroup G] [Module F G] [Field F'] [AddCommGroup H] [Module F' H]
variable [AddCommGroup E] [AddCommGroup K] [DecidableEq G] [DecidableEq H] (T : TraceExt F G F' H AT E K)

/-- `AssetTracerKeyPair::generate` (structs.rs l.296-316) from its random values -/
def TraceExt.generate (s : F) (a : F') (x : Bytes) : DecKeys F F' × EncKeys G H :=
  (⟨(keyGen T.gBase s).1, (keyGen T.hBase a).1, xSecret x⟩,
    ⟨(keyGen T.gBase s).2, (keyGen T.hBase a).2, T.xPublic (xSecret x)⟩)

/-- the plaintext assembled in `TracerMemo::new` (l.38-65) -/
def TraceExt.plaintext (amount : Option (UInt32 × UInt32 × F × F)) (ty : Option (AT × F)) (attrs : List (UInt32 × Ct H)) :
    Bytes :=
  (match amount with
    | some (lo, hi, _, _) => beBytes 4 lo.toNat ++ beBytes 4 hi.toNat
    | none => []) ++
  ((match ty with
    | some (t, _) => T.atBytes t
    | none => []) ++
  (attrs.map fun a => beBytes 4 a.1.toNat).flatten)

/-- the memo assembled in `TracerMemo::new` (l.39-75) from the encrypted text -/
def TraceExt.memoWith (k : EncKeys G H) (amount : Option (UInt32 × UInt32 × F × F)) (ty : Option (AT × F))
    (attrs : List (UInt32 × Ct H)) (c : HybridCt) : FullMemo G H where
  encKey := k
  lockAmount := amount.map fun v =>
    (encrypt T.gBase (v.1.toNat : F) v.2.2.1 k.data, encrypt T.gBase (v.2.1.toNat : F) v.2.2.2 k.data)
  lockType := ty.map fun v => encrypt T.gBase (T.asScalar v.1) v.2 k.data
  lockAttrs := attrs.map (·.2)
  lockInfo := c

/-- `TracerMemo::new` (l.31-76); `e` are the random bytes of the hybrid encryption.  `none` does not occur (C38). -/
def TraceExt.newMemo (e : Bytes) (k : EncKeys G H) (amount : Option (UInt32 × UInt32 × F × F)) (ty : Option (AT × F))
    (attrs : List (UInt32 × Ct H)) : Option (FullMemo G H) :=
  (T.hybridEncX e k.lock (T.plaintext amount ty attrs)).map (T.memoWith k amount ty attrs)

/-- `u8_be_slice_to_u32` (algebra/src/utils.rs l.24-28): `copy_from_slice` panics unless there are four bytes -/
def beU32 (b : Bytes) : Res UInt32 := if b.length ≠ 4 then .panic else .ok (UInt32.ofNat (ofBE b))

/-- `slice.chunks(4)` -/
def chunks4 : Bytes → List Bytes
  | a :: b :: c :: d :: rest => [a, b, c, d] :: chunks4 rest
  | [] => []
  | l => [l]

/-- `verify_amount` (l.139-161) -/
def TraceExt.verifyAmount (m : FullMemo G H) (sk : F) (expected : UInt64) : Res Unit :=
  match m.lockAmount with
  | some (lo, hi) =>
    if ((splitU64 expected).1.toNat : F) • T.gBase ≠ partialDecrypt lo sk ∨
        ((splitU64 expected).2.toNat : F) • T.gBase ≠ partialDecrypt hi sk then .err
    else .ok ()
  | none => .err

/-- `verify_asset_type` (l.165-179) -/
def TraceExt.verifyType (m : FullMemo G H) (sk : F) (expected : AT) : Res Unit :=
  match m.lockType with
  | some c => if partialDecrypt c sk = T.asScalar expected • T.gBase then .ok () else .err
  | none => .err

/-- the loop of `extract_asset_type` (l.193-198) -/
def TraceExt.extractLoop (m : FullMemo G H) (sk : F) : List AT → Res AT
  | [] => .err
  | c :: rest => match T.verifyType m sk c with
    | .ok _ => .ok c
    | _ => TraceExt.extractLoop m sk rest

/-- `extract_asset_type` (l.185-199) -/
def TraceExt.extractType (m : FullMemo G H) (sk : F) (cands : List AT) : Res AT :=
  if cands.isEmpty then .err else T.extractLoop m sk cands

/-- `verify_identity_attributes` (l.204-224) -/
def TraceExt.verifyAttrs (m : FullMemo G H) (sk : F') (expected : List UInt32) : Res (List Bool) :=
  if m.lockAttrs.length ≠ expected.length then .err
  else .ok ((m.lockAttrs.zip expected).map fun (c, x) => decide (partialDecrypt c sk = (x.toNat : F') • T.hBase))

/-- first step of `decrypt`: the amount (l.84-98) -/
def TraceExt.decryptAmountPart (m : FullMemo G H) (sk : DecKeys F F') (pt : Bytes) : Res (Option UInt64 × Bytes) :=
  if m.lockAmount.isSome then
    if pt.length < 8 then .err
    else do
      let lo ← beU32 (pt.take 4)
      let hi ← beU32 ((pt.drop 4).take 4)
      let amount := lo.toUInt64 + (hi.toUInt64 <<< 32)
      T.verifyAmount m sk.data amount
      pure (some amount, pt.drop 8)
  else .ok (none, pt)

/-- second step of `decrypt`: the asset type (l.101-116) -/
def TraceExt.decryptTypePart (m : FullMemo G H) (sk : DecKeys F F') (pt : Bytes) : Res (Option AT × Bytes) :=
  if m.lockType.isSome then
    if pt.length < 32 then .err
    else do
      T.verifyType m sk.data (T.atOf (pt.take 32))
      pure (some (T.atOf (pt.take 32)), pt.drop 32)
  else .ok (none, pt)

/-- third step of `decrypt`: the attributes (l.118-133) -/
def TraceExt.decryptAttrsPart (m : FullMemo G H) (sk : DecKeys F F') (pt : Bytes) : Res (List UInt32) :=
  if pt.length < m.lockAttrs.length * 4 then .err
  else do
    let attrs ← (chunks4 pt).mapM beU32
    let oks ← T.verifyAttrs m sk.attrs attrs
    if oks.all id then pure attrs else .err

/-- `TracerMemo::decrypt` (l.80-135) -/
def TraceExt.decryptMemo (m : FullMemo G H) (sk : DecKeys F F') : Res (Option UInt64 × Option AT × List UInt32) := do
  let a ← T.decryptAmountPart m sk (T.hybridDecX m.lockInfo sk.lock)
  let t ← T.decryptTypePart m sk a.2
  let attrs ← T.decryptAttrsPart m sk t.2
  pure (a.1, t.1, attrs)

end Defs

section Proofs

variable {F G F' H AT E K : Type} [Field F] [AddCommGroup G] [Module F G] [Field F'] [AddCommGroup H] [Module F' H]
variable [AddCommGroup E] [AddCommGroup K] [DecidableEq G] [DecidableEq H] (T : TraceExt F G F' H AT E K)

theorem beU32_beBytes (x : UInt32) : beU32 (beBytes 4 x.toNat) = .ok x := by
  unfold beU32
  rw [if_neg (by simp), ofBE_beBytes_of_lt (lt_of_lt_of_le x.toNat_lt (by norm_num))]
  simp

theorem chunks4_append (a rest : Bytes) (h : a.length = 4) : chunks4 (a ++ rest) = a :: chunks4 rest := by
  match a, h with
  | [w, x, y, z], _ => rfl

theorem chunks4_attrs (l : List UInt32) :
    (chunks4 (l.map fun a => beBytes 4 a.toNat).flatten).mapM beU32 = Res.ok l := by
  induction l with
  | nil => rfl
  | cons a l ih =>
    rw [List.map_cons, List.flatten_cons, chunks4_append _ _ (beBytes_length _ _), List.mapM_cons, beU32_beBytes, ih]
    rfl

theorem recombine (lo hi : UInt32) : splitU64 (lo.toUInt64 + (hi.toUInt64 <<< 32)) = (lo, hi) ∧
    (lo.toUInt64 + (hi.toUInt64 <<< 32)).toNat = lo.toNat + 2 ^ 32 * hi.toNat := by
  have hlo : lo.toNat < 2 ^ 32 := lo.toNat_lt
  have hhi : hi.toNat < 2 ^ 32 := hi.toNat_lt
  have hn : (lo.toUInt64 + (hi.toUInt64 <<< 32)).toNat = lo.toNat + 2 ^ 32 * hi.toNat := by
    rw [UInt64.toNat_add, UInt64.toNat_shiftLeft]
    simp only [UInt32.toNat_toUInt64]
    have : (32 : UInt64).toNat % 64 = 32 := rfl
    rw [this, Nat.shiftLeft_eq]
    omega
  refine ⟨?_, hn⟩
  obtain ⟨h1, h2⟩ := splitU64_toNat (lo.toUInt64 + (hi.toUInt64 <<< 32))
  rw [hn] at h1 h2
  apply Prod.ext
  · apply UInt32.toNat_inj.mp
    rw [h1]
    show _ = lo.toNat
    omega
  · apply UInt32.toNat_inj.mp
    rw [h2]
    show _ = hi.toNat
    omega

theorem gen_decrypts (s m r : F) (sa : F') (x : Bytes) :
    partialDecrypt (encrypt T.gBase m r (T.generate s sa x).2.data) (T.generate s sa x).1.data = m • T.gBase :=
  C37_decrypts T.gBase s m r

variable (hT : TraceLaws T)

include hT in
/-- C21: a tracer whose keys were used for a memo decrypts exactly the amount, the asset type and the attributes that were put
into it, for every combination of fields, as long as the attribute ciphertexts handed to `new` encrypt the attributes. -/
theorem C21_decrypt_returns (s : F) (sa : F') (x e : Bytes) (amount : Option (UInt32 × UInt32 × F × F))
    (ty : Option (AT × F)) (attrs : List (UInt32 × Ct H))
    (hattr : ∀ a ∈ attrs, ∃ r : F', a.2 = encrypt T.hBase (a.1.toNat : F') r (T.generate s sa x).2.attrs) :
    ∃ m, T.newMemo e (T.generate s sa x).2 amount ty attrs = some m ∧
      ∃ a, T.decryptMemo m (T.generate s sa x).1 = .ok (a, ty.map (·.1), attrs.map (·.1)) ∧
        a.map UInt64.toNat = amount.map fun v => v.1.toNat + 2 ^ 32 * v.2.1.toNat := by
  obtain ⟨c, hc, hd⟩ := C38_x25519_round_trip T.toMemoPrims hT.memo e x (T.plaintext amount ty attrs)
  refine ⟨T.memoWith (T.generate s sa x).2 amount ty attrs c, by
    unfold TraceExt.newMemo
    rw [show (T.generate s sa x).2.lock = T.xPublic (xSecret x) from rfl, hc]
    rfl, ?_⟩
  generalize hm : T.memoWith (T.generate s sa x).2 amount ty attrs c = m
  have hm1 : m.lockInfo = c := by rw [← hm]; rfl
  have hm2 : m.lockAttrs = attrs.map (·.2) := by rw [← hm]; rfl
  have hm3 : m.lockType = ty.map (fun v => encrypt T.gBase (T.asScalar v.1) v.2 (T.generate s sa x).2.data) := by
    rw [← hm]; rfl
  have hd' : T.hybridDecX c (T.generate s sa x).1.lock = T.plaintext amount ty attrs := hd
  -- attributes
  have hA : ∀ mm : FullMemo G H, mm.lockAttrs = attrs.map (·.2) →
      T.decryptAttrsPart mm (T.generate s sa x).1 (attrs.map fun a => beBytes 4 a.1.toNat).flatten =
        .ok (attrs.map (·.1)) := by
    intro mm hmm
    have hlen : (attrs.map fun a => beBytes 4 a.1.toNat).flatten.length = attrs.length * 4 := by
      rw [List.length_flatten, List.map_map]
      have : (List.length ∘ fun a : UInt32 × Ct H => beBytes 4 a.1.toNat) = fun _ => 4 := by
        funext a
        simp
      rw [this]
      simp
    have hchunks := chunks4_attrs (attrs.map (·.1))
    rw [List.map_map] at hchunks
    have hv : T.verifyAttrs mm (T.generate s sa x).1.attrs (attrs.map (·.1)) = .ok (attrs.map fun _ => true) := by
      unfold TraceExt.verifyAttrs
      rw [hmm, if_neg (by simp), List.zip_map']
      congr 1
      rw [List.map_map]
      apply List.map_congr_left
      intro a ha
      obtain ⟨r, hr⟩ := hattr a ha
      simp only [Function.comp_apply, hr, decide_eq_true_eq]
      exact C37_decrypts T.hBase sa _ r
    unfold TraceExt.decryptAttrsPart
    rw [if_neg (by rw [hmm, hlen]; simp)]
    rw [show (attrs.map fun a => beBytes 4 a.1.toNat) = attrs.map ((fun a : UInt32 => beBytes 4 a.toNat) ∘ (·.1)) from rfl,
      hchunks, Res.bind_ok, hv, Res.bind_ok, if_pos (by simp)]
    rfl
  -- asset type
  have hTy : ∀ mm : FullMemo G H, ∀ rest : Bytes,
      mm.lockType = ty.map (fun v => encrypt T.gBase (T.asScalar v.1) v.2 (T.generate s sa x).2.data) →
      T.decryptTypePart mm (T.generate s sa x).1 ((match ty with
        | some (t, _) => T.atBytes t
        | none => []) ++ rest) = .ok (ty.map (·.1), rest) := by
    intro mm rest hmm
    cases ty with
    | none =>
      simp only [Option.map_none] at hmm
      simp [TraceExt.decryptTypePart, hmm]
    | some v =>
      obtain ⟨t, b⟩ := v
      simp only [Option.map_some] at hmm
      have h1 : (T.atBytes t ++ rest).take 32 = T.atBytes t := List.take_left' (hT.at_len t)
      have h2 : (T.atBytes t ++ rest).drop 32 = rest := List.drop_left' (hT.at_len t)
      have hv : T.verifyType mm (T.generate s sa x).1.data t = .ok () := by
        unfold TraceExt.verifyType
        rw [hmm]
        simp only
        rw [if_pos (gen_decrypts T s (T.asScalar t) b sa x)]
      simp only [TraceExt.decryptTypePart, hmm, Option.isSome_some, if_true, h1, h2, hT.at_rt, hv]
      rw [if_neg (by simp [hT.at_len])]
      simp
  cases amount with
  | none =>
    refine ⟨none, ?_, rfl⟩
    have hA' := hA m hm2
    have hT' := hTy m (attrs.map fun a => beBytes 4 a.1.toNat).flatten hm3
    unfold TraceExt.decryptMemo
    rw [hm1, hd']
    have hm4 : m.lockAmount = none := by rw [← hm]; rfl
    simp only [TraceExt.decryptAmountPart, hm4, Option.isSome_none, Bool.false_eq_true, if_false,
      Res.bind_ok]
    simp only [TraceExt.plaintext, List.nil_append]
    rw [hT', Res.bind_ok]
    simp only
    rw [hA', Res.bind_ok]
    rfl
  | some v =>
    obtain ⟨lo, hi, blo, bhi⟩ := v
    obtain ⟨hr1, hr2⟩ := recombine lo hi
    refine ⟨some (lo.toUInt64 + (hi.toUInt64 <<< 32)), ?_, by simp [hr2]⟩
    have hA' := hA m hm2
    have hT' := hTy m (attrs.map fun a => beBytes 4 a.1.toNat).flatten hm3
    have hm4 : m.lockAmount = some (encrypt T.gBase (lo.toNat : F) blo (T.generate s sa x).2.data,
        encrypt T.gBase (hi.toNat : F) bhi (T.generate s sa x).2.data) := by rw [← hm]; rfl
    have hv : T.verifyAmount m (T.generate s sa x).1.data (lo.toUInt64 + (hi.toUInt64 <<< 32)) = .ok () := by
      unfold TraceExt.verifyAmount
      rw [hm4]
      simp only [hr1]
      rw [if_neg]
      rintro (h | h)
      · exact h (gen_decrypts T s _ blo sa x).symm
      · exact h (gen_decrypts T s _ bhi sa x).symm
    unfold TraceExt.decryptMemo
    rw [hm1, hd']
    have hpt : T.plaintext (some (lo, hi, blo, bhi)) ty attrs = beBytes 4 lo.toNat ++ (beBytes 4 hi.toNat ++ ((match ty with
        | some (t, _) => T.atBytes t
        | none => []) ++ (attrs.map fun a => beBytes 4 a.1.toNat).flatten)) := by
      simp only [TraceExt.plaintext, List.append_assoc]
    rw [hpt]
    generalize hrest : ((match ty with
        | some (t, _) => T.atBytes t
        | none => []) ++ (attrs.map fun a => beBytes 4 a.1.toNat).flatten) = rest at hT' ⊢
    have h1 : ∀ r : Bytes, (beBytes 4 lo.toNat ++ r).take 4 = beBytes 4 lo.toNat := fun r => List.take_left' (beBytes_length _ _)
    have h2 : ∀ r : Bytes, (beBytes 4 lo.toNat ++ r).drop 4 = r := fun r => List.drop_left' (beBytes_length _ _)
    have h3 : (beBytes 4 hi.toNat ++ rest).take 4 = beBytes 4 hi.toNat := List.take_left' (beBytes_length _ _)
    have h4 : (beBytes 4 lo.toNat ++ (beBytes 4 hi.toNat ++ rest)).drop 8 = rest := by
      rw [← List.append_assoc]
      exact List.drop_left' (by simp)
    have hAm : T.decryptAmountPart m (T.generate s sa x).1 (beBytes 4 lo.toNat ++ (beBytes 4 hi.toNat ++ rest)) =
        .ok (some (lo.toUInt64 + (hi.toUInt64 <<< 32)), rest) := by
      unfold TraceExt.decryptAmountPart
      rw [if_pos (by rw [hm4]; rfl), if_neg (by simp; omega), h1, h2, h3, h4, beU32_beBytes, beU32_beBytes]
      simp only [Res.bind_ok, hv, Res.pure_eq]
    rw [hAm, Res.bind_ok]
    simp only
    rw [hT', Res.bind_ok]
    simp only
    rw [hA', Res.bind_ok]
    rfl

/-- C21: whatever memo is decrypted, an answer is consistent with the ciphertexts of the memo that the transfer proofs speak
about: the amount and type returned are what the ElGamal ciphertexts decrypt to under the tracer's key, attribute for attribute
too, and a field is returned exactly when the memo has it. -/
theorem C21_decrypt_consistent (m : FullMemo G H) (sk : DecKeys F F') (a : Option UInt64) (t : Option AT)
    (attrs : List UInt32) (h : T.decryptMemo m sk = .ok (a, t, attrs)) :
    (match a, m.lockAmount with
      | some a, some (lo, hi) =>
        partialDecrypt lo sk.data = ((a.toNat % 2 ^ 32 : Nat) : F) • T.gBase ∧
        partialDecrypt hi sk.data = ((a.toNat / 2 ^ 32 : Nat) : F) • T.gBase
      | none, none => True
      | _, _ => False) ∧
    (match t, m.lockType with
      | some t, some c => partialDecrypt c sk.data = T.asScalar t • T.gBase
      | none, none => True
      | _, _ => False) ∧
    m.lockAttrs.map (partialDecrypt · sk.attrs) = attrs.map fun x => (x.toNat : F') • T.hBase := by
  unfold TraceExt.decryptMemo at h
  obtain ⟨⟨a', pt⟩, hA, h⟩ := Res.bind_eq_ok.mp h
  obtain ⟨⟨t', pt'⟩, hT, h⟩ := Res.bind_eq_ok.mp h
  obtain ⟨attrs', hB, h⟩ := Res.bind_eq_ok.mp h
  simp only [Res.pure_eq, Res.ok.injEq, Prod.mk.injEq] at h
  obtain ⟨rfl, rfl, rfl⟩ := h
  refine ⟨?_, ?_, ?_⟩
  · unfold TraceExt.decryptAmountPart at hA
    cases hl : m.lockAmount with
    | none =>
      rw [hl] at hA
      simp only [Option.isSome_none, Bool.false_eq_true, if_false, Res.ok.injEq, Prod.mk.injEq] at hA
      obtain ⟨rfl, rfl⟩ := hA
      trivial
    | some v =>
      obtain ⟨lo, hi⟩ := v
      rw [hl] at hA
      simp only [Option.isSome_some, if_true] at hA
      split at hA
      · simp at hA
      · obtain ⟨x, hx, hA⟩ := Res.bind_eq_ok.mp hA
        obtain ⟨y, hy, hA⟩ := Res.bind_eq_ok.mp hA
        obtain ⟨u, hu, hA⟩ := Res.bind_eq_ok.mp hA
        simp only [Res.pure_eq, Res.ok.injEq, Prod.mk.injEq] at hA
        obtain ⟨rfl, rfl⟩ := hA
        unfold TraceExt.verifyAmount at hu
        rw [hl] at hu
        simp only at hu
        split at hu
        · simp at hu
        · rename_i hne
          push Not at hne
          obtain ⟨h1, h2⟩ := splitU64_toNat (x.toUInt64 + (y.toUInt64 <<< 32))
          rw [h1, h2] at hne
          exact ⟨hne.1.symm, hne.2.symm⟩
  · unfold TraceExt.decryptTypePart at hT
    cases hl : m.lockType with
    | none =>
      rw [hl] at hT
      simp only [Option.isSome_none, Bool.false_eq_true, if_false, Res.ok.injEq, Prod.mk.injEq] at hT
      obtain ⟨rfl, rfl⟩ := hT
      trivial
    | some c =>
      rw [hl] at hT
      simp only [Option.isSome_some, if_true] at hT
      split at hT
      · simp at hT
      · obtain ⟨u, hu, hT⟩ := Res.bind_eq_ok.mp hT
        simp only [Res.pure_eq, Res.ok.injEq, Prod.mk.injEq] at hT
        obtain ⟨rfl, rfl⟩ := hT
        unfold TraceExt.verifyType at hu
        rw [hl] at hu
        simp only at hu
        split at hu
        · assumption
        · simp at hu
  · unfold TraceExt.decryptAttrsPart at hB
    split at hB
    · simp at hB
    · obtain ⟨at2, h1, hB⟩ := Res.bind_eq_ok.mp hB
      obtain ⟨oks, h2, hB⟩ := Res.bind_eq_ok.mp hB
      split at hB
      · rename_i hall
        simp only [Res.pure_eq, Res.ok.injEq] at hB
        subst hB
        unfold TraceExt.verifyAttrs at h2
        split at h2
        · simp at h2
        · rename_i hlen
          push Not at hlen
          simp only [Res.ok.injEq] at h2
          subst h2
          have : ∀ (l : List (Ct H)) (r : List UInt32), l.length = r.length →
              ((l.zip r).map fun (c, x) => decide (partialDecrypt c sk.attrs = (x.toNat : F') • T.hBase)).all id = true →
              l.map (partialDecrypt · sk.attrs) = r.map fun x => (x.toNat : F') • T.hBase := by
            intro l
            induction l with
            | nil => intro r hl _; cases r <;> simp_all
            | cons c l ih =>
              intro r hl hh
              cases r with
              | nil => simp at hl
              | cons x r =>
                simp only [List.zip_cons_cons, List.map_cons, List.all_cons, id, Bool.and_eq_true, decide_eq_true_eq] at hh
                simp only [List.map_cons, hh.1, ih r (by simpa using hl) hh.2]
          exact this _ _ hlen hall
      · simp at hB

theorem extractLoop_spec (m : FullMemo G H) (sk : F) (cands : List AT) (c : Ct G) (hc : m.lockType = some c) :
    (∀ t, T.extractLoop m sk cands = .ok t ↔ ∃ pre post, cands = pre ++ t :: post ∧
      partialDecrypt c sk = T.asScalar t • T.gBase ∧ ∀ u ∈ pre, partialDecrypt c sk ≠ T.asScalar u • T.gBase) ∧
    ((∃ t ∈ cands, partialDecrypt c sk = T.asScalar t • T.gBase) → ∃ t, T.extractLoop m sk cands = .ok t) := by
  induction cands with
  | nil => simp [TraceExt.extractLoop]
  | cons x cands ih =>
    have hv : T.verifyType m sk x = if partialDecrypt c sk = T.asScalar x • T.gBase then .ok () else .err := by
      unfold TraceExt.verifyType
      rw [hc]
    by_cases hx : partialDecrypt c sk = T.asScalar x • T.gBase
    · rw [if_pos hx] at hv
      constructor
      · intro t
        simp only [TraceExt.extractLoop, hv, Res.ok.injEq]
        constructor
        · rintro rfl
          exact ⟨[], cands, rfl, hx, by simp⟩
        · rintro ⟨pre, post, e, h1, h2⟩
          cases pre with
          | nil =>
            simp only [List.nil_append, List.cons.injEq] at e
            exact e.1
          | cons y pre =>
            simp only [List.cons_append, List.cons.injEq] at e
            exact absurd hx (h2 x (by rw [e.1]; exact List.mem_cons_self))
      · intro _
        exact ⟨x, by simp only [TraceExt.extractLoop, hv]⟩
    · rw [if_neg hx] at hv
      constructor
      · intro t
        simp only [TraceExt.extractLoop, hv]
        rw [ih.1 t]
        constructor
        · rintro ⟨pre, post, e, h1, h2⟩
          refine ⟨x :: pre, post, by rw [e]; rfl, h1, ?_⟩
          intro u hu
          rcases List.mem_cons.mp hu with rfl | hu
          · exact hx
          · exact h2 u hu
        · rintro ⟨pre, post, e, h1, h2⟩
          cases pre with
          | nil =>
            simp only [List.nil_append, List.cons.injEq] at e
            rw [e.1] at hx
            exact absurd h1 hx
          | cons y pre =>
            simp only [List.cons_append, List.cons.injEq] at e
            exact ⟨pre, post, e.2, h1, fun u hu => h2 u (List.mem_cons_of_mem _ hu)⟩
      · rintro ⟨t, ht, h⟩
        simp only [TraceExt.extractLoop, hv]
        rcases List.mem_cons.mp ht with rfl | ht
        · exact absurd h hx
        · exact ih.2 ⟨t, ht, h⟩

/-- C21: scanning a candidate list that contains the type of the memo returns it; the only exception is another candidate with
the same scalar, a collision of the hash behind `as_scalar`. -/
theorem C21_extract_finds (hb : T.gBase ≠ 0) (s : F) (sa : F') (x e : Bytes)
    (amount : Option (UInt32 × UInt32 × F × F)) (t : AT) (b : F) (attrs : List (UInt32 × Ct H)) (m : FullMemo G H)
    (hm : T.newMemo e (T.generate s sa x).2 amount (some (t, b)) attrs = some m) (cands : List AT) (hc : t ∈ cands) :
    ∃ t', T.extractType m (T.generate s sa x).1.data cands = .ok t' ∧ t' ∈ cands ∧ T.asScalar t' = T.asScalar t := by
  unfold TraceExt.newMemo at hm
  obtain ⟨c, -, rfl⟩ := Option.map_eq_some_iff.mp hm
  have hd := gen_decrypts T s (T.asScalar t) b sa x
  have hspec := extractLoop_spec T (T.memoWith (T.generate s sa x).2 amount (some (t, b)) attrs c)
    (T.generate s sa x).1.data cands _ rfl
  obtain ⟨t', ht'⟩ := hspec.2 ⟨t, hc, hd⟩
  obtain ⟨pre, post, hp, h1, -⟩ := (hspec.1 t').mp ht'
  refine ⟨t', ?_, by rw [hp]; simp, ?_⟩
  · unfold TraceExt.extractType
    rw [if_neg (by cases cands <;> simp_all)]
    exact ht'
  · rw [hd] at h1
    have h2 : (T.asScalar t' - T.asScalar t) • T.gBase = 0 := by linear_combination (norm := module) -h1
    rcases smul_eq_zero.mp h2 with h3 | h3
    · exact sub_eq_zero.mp h3
    · exact absurd h3 hb

/-- C21: when no candidate has the scalar of the memo's type the scan reports an error. -/
theorem C21_extract_refuses (hb : T.gBase ≠ 0) (s : F) (sa : F') (x e : Bytes)
    (amount : Option (UInt32 × UInt32 × F × F)) (t : AT) (b : F) (attrs : List (UInt32 × Ct H)) (m : FullMemo G H)
    (hm : T.newMemo e (T.generate s sa x).2 amount (some (t, b)) attrs = some m) (cands : List AT)
    (hc : ∀ u ∈ cands, T.asScalar u ≠ T.asScalar t) :
    T.extractType m (T.generate s sa x).1.data cands = .err := by
  unfold TraceExt.newMemo at hm
  obtain ⟨c, -, rfl⟩ := Option.map_eq_some_iff.mp hm
  have hd := gen_decrypts T s (T.asScalar t) b sa x
  unfold TraceExt.extractType
  split
  · rfl
  · clear hm
    induction cands with
    | nil => rfl
    | cons u cands ih =>
      have hne : partialDecrypt (encrypt T.gBase (T.asScalar t) b (T.generate s sa x).2.data) (T.generate s sa x).1.data ≠
          T.asScalar u • T.gBase := by
        rw [hd]
        intro h1
        have h2 : (T.asScalar u - T.asScalar t) • T.gBase = 0 := by linear_combination (norm := module) -h1
        rcases smul_eq_zero.mp h2 with h3 | h3
        · exact hc u List.mem_cons_self (sub_eq_zero.mp h3)
        · exact absurd h3 hb
      simp only [TraceExt.extractLoop, TraceExt.verifyType, TraceExt.memoWith, Option.map_some]
      rw [if_neg hne]
      cases cands with
      | nil => rfl
      | cons v cands => exact ih (fun u hu => hc u (List.mem_cons_of_mem _ hu)) (by simp)

theorem smul_base_inj {F G : Type} [Field F] [AddCommGroup G] [Module F G] {g : G} (hg : g ≠ 0) {a b : F} : a • g = b • g ↔ a = b :=
  ⟨fun h => sub_eq_zero.mp ((smul_eq_zero.mp (by rw [sub_smul, h, sub_self])).resolve_right hg), fun h => by rw [h]⟩

/-- C21: asked whether a memo holds an amount, the tracer hears yes exactly when it does; a memo without an amount holds none.  The field has more
than `2^32` elements. -/
theorem C21_amount_question (hb : T.gBase ≠ 0) (hF : ∀ a b : UInt32, (a.toNat : F) = (b.toNat : F) → a = b) (s : F) (sa : F') (x e : Bytes)
    (amount : Option (UInt32 × UInt32 × F × F)) (ty : Option (AT × F)) (attrs : List (UInt32 × Ct H)) (m : FullMemo G H)
    (hm : T.newMemo e (T.generate s sa x).2 amount ty attrs = some m) (expected : UInt64) :
    (T.verifyAmount m (T.generate s sa x).1.data expected = .ok () ↔
      ∃ v, amount = some v ∧ expected.toNat = v.1.toNat + 2 ^ 32 * v.2.1.toNat) ∧
    T.verifyAmount m (T.generate s sa x).1.data expected ≠ .panic := by
  unfold TraceExt.newMemo at hm
  obtain ⟨c, -, rfl⟩ := Option.map_eq_some_iff.mp hm
  obtain ⟨h1, h2⟩ := splitU64_toNat expected
  cases amount with
  | none => simp [TraceExt.verifyAmount, TraceExt.memoWith]
  | some v =>
    obtain ⟨lo, hi, blo, bhi⟩ := v
    simp only [TraceExt.verifyAmount, TraceExt.memoWith, Option.map_some]
    rw [gen_decrypts T s _ blo sa x, gen_decrypts T s _ bhi sa x]
    have hlo := lo.toNat_lt
    have key : ((splitU64 expected).1 = lo ∧ (splitU64 expected).2 = hi) ↔ expected.toNat = lo.toNat + 2 ^ 32 * hi.toNat := by
      rw [← UInt32.toNat_inj, ← UInt32.toNat_inj, h1, h2]
      omega
    refine ⟨?_, by split_ifs <;> simp⟩
    split_ifs with h <;> simp only [ne_eq, smul_base_inj hb] at h
    · simp only [reduceCtorEq, Option.some.injEq, exists_eq_left', false_iff]
      rw [← key]
      rintro ⟨rfl, rfl⟩
      simp at h
    · push Not at h
      simp only [Option.some.injEq, exists_eq_left', true_iff]
      exact key.mp ⟨hF _ _ h.1, hF _ _ h.2⟩

/-- C21: asked whether a memo holds an asset type, the tracer hears yes exactly when it holds one with that scalar; a memo without an asset type
holds none, and no candidate is found in it. -/
theorem C21_type_question (hb : T.gBase ≠ 0) (s : F) (sa : F') (x e : Bytes) (amount : Option (UInt32 × UInt32 × F × F)) (ty : Option (AT × F))
    (attrs : List (UInt32 × Ct H)) (m : FullMemo G H) (hm : T.newMemo e (T.generate s sa x).2 amount ty attrs = some m) (expected : AT) :
    (T.verifyType m (T.generate s sa x).1.data expected = .ok () ↔ ∃ v, ty = some v ∧ T.asScalar expected = T.asScalar v.1) ∧
    T.verifyType m (T.generate s sa x).1.data expected ≠ .panic ∧
    (ty = none → ∀ cands, T.extractType m (T.generate s sa x).1.data cands = .err) := by
  unfold TraceExt.newMemo at hm
  obtain ⟨c, -, rfl⟩ := Option.map_eq_some_iff.mp hm
  refine ⟨?_, ?_, ?_⟩
  · cases ty with
    | none => simp [TraceExt.verifyType, TraceExt.memoWith]
    | some v =>
      simp only [TraceExt.verifyType, TraceExt.memoWith, Option.map_some, Option.some.injEq, exists_eq_left']
      rw [gen_decrypts T s _ v.2 sa x]
      split_ifs with h <;> rw [smul_base_inj hb] at h
      · simp [h]
      · simp only [reduceCtorEq, false_iff]
        exact fun h' => h h'.symm
  · unfold TraceExt.verifyType
    split <;> [split_ifs <;> simp; simp]
  · rintro rfl cands
    unfold TraceExt.extractType
    split_ifs
    · rfl
    · induction cands with
      | nil => rfl
      | cons u cands ih =>
        cases cands with
        | nil => rfl
        | cons v cands => exact ih (by simp)

/-- C21: asked about attributes, the tracer hears for each of them whether it is the one in the memo; a list of another length is refused. -/
theorem C21_attributes_question (hb : T.hBase ≠ 0) (hF : ∀ a b : UInt32, (a.toNat : F') = (b.toNat : F') → a = b) (s : F) (sa : F') (x e : Bytes)
    (amount : Option (UInt32 × UInt32 × F × F)) (ty : Option (AT × F)) (attrs : List (UInt32 × Ct H))
    (hattr : ∀ a ∈ attrs, ∃ r : F', a.2 = encrypt T.hBase (a.1.toNat : F') r (T.generate s sa x).2.attrs) (m : FullMemo G H)
    (hm : T.newMemo e (T.generate s sa x).2 amount ty attrs = some m) (expected : List UInt32) :
    (expected.length ≠ attrs.length → T.verifyAttrs m (T.generate s sa x).1.attrs expected = .err) ∧
    (expected.length = attrs.length → ∃ l, T.verifyAttrs m (T.generate s sa x).1.attrs expected = .ok l ∧ l.length = attrs.length ∧
      ∀ i : Nat, ∀ a u : UInt32, (attrs.map (·.1))[i]? = some a → expected[i]? = some u → l[i]? = some (decide (a = u))) := by
  unfold TraceExt.newMemo at hm
  obtain ⟨c, -, rfl⟩ := Option.map_eq_some_iff.mp hm
  unfold TraceExt.verifyAttrs
  simp only [TraceExt.memoWith, List.length_map]
  refine ⟨fun h => if_pos (Ne.symm h), fun h => ?_⟩
  rw [if_neg (by simp [h])]
  refine ⟨_, rfl, by simp [h], fun i a u ha hu => ?_⟩
  rw [List.getElem?_map] at ha
  obtain ⟨⟨a', ct⟩, ha1, rfl⟩ := Option.map_eq_some_iff.mp ha
  obtain ⟨r, hr⟩ := hattr _ (List.mem_of_getElem? ha1)
  have hz : ((attrs.map (·.2)).zip expected)[i]? = some (ct, u) := by
    rw [List.getElem?_zip_eq_some, List.getElem?_map, ha1]
    exact ⟨rfl, hu⟩
  rw [List.getElem?_map, hz, Option.map_some]
  simp only at hr ⊢
  have hd : partialDecrypt ct (T.generate s sa x).1.attrs = (a'.toNat : F') • T.hBase := by
    rw [hr]
    exact C37_decrypts T.hBase sa _ r
  rw [hd]
  congr 1
  by_cases h' : a' = u
  · simp [h']
  · simp only [h', decide_false, decide_eq_false_iff_not]
    rw [smul_base_inj hb]
    exact fun e => h' (hF _ _ e)

include hT in
/-- Decryption trusts the length of the plaintext: a memo whose encrypted text is a single byte makes the tracer panic.  Anyone
can make such a memo with the tracer's public keys. -/
theorem C21_hostile_memo_panics (s : F) (sa : F') (x e : Bytes) (byte : UInt8) :
    ∃ c, T.hybridEncX e (T.generate s sa x).2.lock [byte] = some c ∧
      T.decryptMemo ⟨(T.generate s sa x).2, none, none, [], c⟩ (T.generate s sa x).1 = .panic := by
  obtain ⟨c, hc, hd⟩ := C38_x25519_round_trip T.toMemoPrims hT.memo e x [byte]
  refine ⟨c, hc, ?_⟩
  have hd' : T.hybridDecX c (T.generate s sa x).1.lock = [byte] := hd
  unfold TraceExt.decryptMemo
  rw [show T.hybridDecX _ _ = _ from hd']
  rfl

end Proofs

/-! ### The hypotheses can be met -/

@[reducible] def traceX : TraceExt ℚ ℚ ℚ ℚ (Fix 32) (ZMod 97) (ZMod 101) where
  toMemoPrims := toyPrims
  gBase := 1
  hBase := 1
  asScalar := fun t => (ofLE t.1 : ℚ)
  atBytes := fun t => t.1
  atOf := fun b => if h : b.length = 32 then ⟨b, h⟩ else ⟨List.replicate 32 0, rfl⟩

theorem traceX_laws : TraceLaws traceX where
  memo := toyPrims_laws
  at_len := fun t => t.2
  at_rt := fun t => by simp [traceX, t.2]

example : ∃ m, traceX.newMemo [1] (traceX.generate 3 4 (List.replicate 32 9)).2 (some (5, 7, 11, 13))
      (some (⟨List.replicate 32 7, rfl⟩, 2)) [(8, encrypt 1 (8 : ℚ) 6 (traceX.generate 3 4 (List.replicate 32 9)).2.attrs)] = some m ∧
    ∃ a, traceX.decryptMemo m (traceX.generate 3 4 (List.replicate 32 9)).1 =
      .ok (some a, some ⟨List.replicate 32 7, rfl⟩, [8]) ∧ a.toNat = 5 + 2 ^ 32 * 7 := by
  obtain ⟨m, hm, a, ha, h⟩ := C21_decrypt_returns traceX traceX_laws 3 4 (List.replicate 32 9) [1] (some (5, 7, 11, 13))
    (some (⟨List.replicate 32 7, rfl⟩, 2)) [(8, encrypt 1 (8 : ℚ) 6 (traceX.generate 3 4 (List.replicate 32 9)).2.attrs)]
    (by intro a ha; rw [List.mem_singleton] at ha; subst ha; exact ⟨6, rfl⟩)
  refine ⟨m, hm, ?_⟩
  cases a with
  | none => simp at h
  | some a =>
    refine ⟨a, ha, ?_⟩
    simpa using h

/-- C21: in a memo with amount `7 * 2^32 + 5`, no asset type and the attributes 8 and 9 the tracer is asked for the amount, for types, and for the
attributes 8 and 4 -/
example : ∃ m, traceX.newMemo [1] (traceX.generate 3 4 (List.replicate 32 9)).2 (some (5, 7, 11, 13)) none
      [(8, encrypt 1 (8 : ℚ) 6 (traceX.generate 3 4 (List.replicate 32 9)).2.attrs),
        (9, encrypt 1 (9 : ℚ) 2 (traceX.generate 3 4 (List.replicate 32 9)).2.attrs)] = some m ∧
    traceX.verifyAmount m (traceX.generate 3 4 (List.replicate 32 9)).1.data 30064771077 = .ok () ∧
    traceX.verifyType m (traceX.generate 3 4 (List.replicate 32 9)).1.data ⟨List.replicate 32 7, rfl⟩ ≠ .ok () ∧
    ∃ l, traceX.verifyAttrs m (traceX.generate 3 4 (List.replicate 32 9)).1.attrs [8, 4] = .ok l ∧ l[0]? = some true ∧ l[1]? = some false := by
  have hF : ∀ a b : UInt32, (a.toNat : ℚ) = (b.toNat : ℚ) → a = b := fun a b h => UInt32.toNat_inj.mp (by exact_mod_cast h)
  have hattr : ∀ a ∈ [((8 : UInt32), encrypt (F := ℚ) (G := ℚ) 1 8 6 (traceX.generate 3 4 (List.replicate 32 9)).2.attrs),
      (9, encrypt (F := ℚ) (G := ℚ) 1 9 2 (traceX.generate 3 4 (List.replicate 32 9)).2.attrs)],
      ∃ r : ℚ, a.2 = encrypt traceX.hBase (a.1.toNat : ℚ) r (traceX.generate 3 4 (List.replicate 32 9)).2.attrs := by
    intro a ha
    simp only [List.mem_cons, List.not_mem_nil, or_false] at ha
    rcases ha with rfl | rfl
    · exact ⟨6, rfl⟩
    · exact ⟨2, rfl⟩
  obtain ⟨m, hm, -⟩ := C21_decrypt_returns traceX traceX_laws 3 4 (List.replicate 32 9) [1] (some (5, 7, 11, 13)) none _ hattr
  refine ⟨m, hm, (C21_amount_question traceX one_ne_zero hF _ _ _ _ _ _ _ m hm _).1.mpr ⟨_, rfl, by decide⟩, ?_, ?_⟩
  · rw [ne_eq, (C21_type_question traceX one_ne_zero _ _ _ _ _ _ _ m hm _).1]
    simp
  · obtain ⟨l, h1, -, h2⟩ := (C21_attributes_question traceX one_ne_zero hF _ _ _ _ _ _ _ hattr m hm [8, 4]).2 rfl
    exact ⟨l, h1, h2 0 8 8 rfl rfl, h2 1 9 4 rfl rfl⟩

end Verif.Xfr
