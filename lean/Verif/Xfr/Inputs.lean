import Verif.Xfr.Made
import Verif.Xfr.TracerMemo

/-!
C109: the inputs and outputs that the constructors of api/src/xfr/asset_record.rs make, from what the owner has received and with the
policies of the asset, and the notes made of them.
-/

namespace Verif.Xfr

open ElGamal Spec

/-- The functions of records (`RecExt`) and of tracer memos (`TraceExt`) together, and how the types of the transfers hold their values:
record data keys, ciphertexts, the bytes of the attribute key, owner memos, the secret key in a key pair, and identity policies (of type `J`),
which the verifier takes together with the attribute key. -/
structure WalletExt (S : Types) (F' H E K J : Type) extends RecExt S E K, TraceExt S.F S.G F' H S.AT E K where
  ek : S.G → S.EK
  ct : Ct S.G → S.Ct
  act : Ct H → S.ACt
  hBytes : H → Bytes
  enc : S.EK → S.F → S.F → S.Ct
  om : OwnerMemo → S.OM
  omOf : S.OM → OwnerMemo
  secOf : S.KP → SecKey toKeyPrims
  addr : ScPK → Addr
  ip : EncKeys S.G H → J → S.IP

/-- `TracingPolicy` in full (structs.rs:349-357) -/
structure Policy (S : Types) (H J : Type) where
  keys : EncKeys S.G H
  assetTracing : Bool
  identityTracing : Option J

/-- `AssetRecordTemplate` in full (structs.rs:628-642) -/
structure FullTemplate (S : Types) (H J : Type) extends Template S where
  policies : List (Policy S H J)

/-- What the constructors ask of a credential, its secret key and the commitment key: whether the issuer is the one of the policy,
`ac_confidential_open_commitment` (ciphertexts and proof, at the `n`-th call), and `get_revealed_attributes`. -/
structure CredExt (S : Types) (H J : Type) where
  issuerIs : J → Bool
  openCom : Nat → EncKeys S.G H → J → Res (List (Ct H) × S.IPf)
  revealed : J → Res (List UInt32)

/-- a loop that stops at the first error; the step gets its number -/
def loopRes {α β : Type} (f : Nat → α → Res β) : Nat → List α → Res (List β)
  | _, [] => .ok []
  | n, a :: l => do
    let b ← f n a
    let bs ← loopRes f (n + 1) l
    pure (b :: bs)

section Defs
variable {S : Types} [Field S.F] [AddCommGroup S.G] [Module S.F S.G] {F' H E K J : Type} [Field F'] [AddCommGroup H] [Module F' H]
  [AddCommGroup E] [AddCommGroup K] (W : WalletExt S F' H E K J) (X : Ext S)

/-- the policy as the transfer functions see it -/
def WalletExt.viewPolicy (p : Policy S H J) : TracingPolicy S := ⟨W.ek p.keys.data, p.assetTracing, p.identityTracing.map (W.ip p.keys)⟩

/-- the memo as the transfer functions see it -/
def WalletExt.viewMemo (m : FullMemo S.G H) : TracerMemo S :=
  ⟨W.ek m.encKey.data, m.lockAmount.map (fun c => (W.ct c.1, W.ct c.2)), m.lockType.map W.ct, m.lockAttrs.map W.act, W.hBytes m.encKey.attrs,
    m.encKey.lock, (m.lockInfo.ctext, m.lockInfo.epk.1)⟩

/-- `amount_info`, `asset_type_info` and the call of `TracerMemo::new` (asset_record.rs:104-137, 165-184, 212-218 and 411-433); `ca`, `ct` are
the flags of the record type, `e` the random bytes -/
def WalletExt.makeMemo (e : Bytes) (p : Policy S H J) (ca ct : Bool) (o : OpenAssetRecord S) (attrs : List (UInt32 × Ct H)) : Res (FullMemo S.G H) :=
  Res.unwrap (W.newMemo e p.keys
    (if p.assetTracing then if ca then some ((splitU64 o.amount).1, (splitU64 o.amount).2, o.amountBlinds.1, o.amountBlinds.2) else none else none)
    (if p.assetTracing then if ct then some (o.assetType, o.typeBlind) else none else none) attrs)

/-- `open_blind_asset_record` with a key pair and the memo of a note -/
def WalletExt.receive (k : S.KP) (bar : BlindAssetRecord S) (memo : Option S.OM) : Res (OpenAssetRecord S) :=
  W.openRecord bar (memo.map W.omOf) ⟨W.pubOf W.addr (W.secOf k), W.secOf k⟩

omit [Field S.F] [AddCommGroup S.G] [Module S.F S.G] in
/-- `AssetRecord::from_open_asset_record_no_asset_tracing` (asset_record.rs:84-92) -/
def fromOpen (o : OpenAssetRecord S) : AssetRecord S := ⟨o, [], [], [], none⟩

/-- one round of `from_open_asset_record_with_asset_tracing_but_no_identity` -/
def WalletExt.inputStep (e : Nat → Bytes) (o : OpenAssetRecord S) (n : Nat) (p : Policy S H J) : Res (FullMemo S.G H × Option S.IPf) :=
  if p.identityTracing.isSome then .err
  else do
    let m ← W.makeMemo (e n) p o.bar.recordType.1 o.bar.recordType.2 o []
    pure (m, none)

/-- `AssetRecord::from_open_asset_record_with_asset_tracing_but_no_identity` (asset_record.rs:97-150) -/
def WalletExt.fromOpenTraced (e : Nat → Bytes) (o : OpenAssetRecord S) (ps : List (Policy S H J)) : Res (AssetRecord S) := do
  let l ← loopRes (W.inputStep e o) 0 ps
  pure ⟨o, ps.map W.viewPolicy, l.map (·.2), l.map (W.viewMemo ·.1), none⟩

omit [Field S.F] [AddCommGroup S.G] [Module S.F S.G] [AddCommGroup H] in
/-- the identity part of a round, asset_record.rs:186-211 -/
def CredExt.identity (C : CredExt S H J) (n : Nat) (p : Policy S H J) : Res (List (UInt32 × Ct H) × Option S.IPf) :=
  match p.identityTracing with
  | some ip =>
    if ¬ C.issuerIs ip then .err
    else do
      let c ← C.openCom n p.keys ip
      let attrs ← C.revealed ip
      pure (attrs.zip c.1, some c.2)
  | none => .ok ([], none)

/-- one round of `from_open_asset_record_with_tracing` -/
def WalletExt.inputCredStep (C : CredExt S H J) (e : Nat → Bytes) (o : OpenAssetRecord S) (n : Nat) (p : Policy S H J) :
    Res (FullMemo S.G H × Option S.IPf) := do
  let x ← C.identity n p
  let m ← W.makeMemo (e n) p o.bar.recordType.1 o.bar.recordType.2 o x.1
  pure (m, x.2)

/-- `AssetRecord::from_open_asset_record_with_tracing` (asset_record.rs:155-236) -/
def WalletExt.fromOpenCred (C : CredExt S H J) (e : Nat → Bytes) (o : OpenAssetRecord S) (ps : List (Policy S H J)) : Res (AssetRecord S) := do
  let l ← loopRes (W.inputCredStep C e o) 0 ps
  pure ⟨o, ps.map W.viewPolicy, l.map (·.2), l.map (W.viewMemo ·.1), none⟩

/-- the attributes with their ciphertexts, asset_record.rs:568-576 -/
def attrsOf (x : Option (List (Ct H) × S.IPf) × List UInt32) : List (UInt32 × Ct H) :=
  match x.1 with
  | none => []
  | some c => x.2.zip c.1

/-- `build_record_input_from_template` (asset_record.rs:545-590) with the loop of `sample_blind_asset_record` (l.411-433) -/
def WalletExt.buildInput (r : Nat) (rnd : EncRand) (e : Nat → Bytes) (t : FullTemplate S H J)
    (ids : List (Option (List (Ct H) × S.IPf) × List UInt32)) : Res (AssetRecord S) :=
  if t.policies.length ≠ ids.length then .err
  else if (t.policies.zip ids).any (fun x => x.1.identityTracing.isNone && x.2.1.isSome) then .err
  else do
    let b ← W.build X r rnd t.toTemplate
    let l ← loopRes (fun n x => W.makeMemo (e n) x.1 t.confAmount t.confType b.1 (attrsOf x.2)) 0 (t.policies.zip ids)
    pure ⟨b.1, t.policies.map W.viewPolicy, ids.map (fun i => i.1.map (·.2)), l.map W.viewMemo, b.2.map W.om⟩

/-- `AssetRecord::from_template_no_identity_tracing` (asset_record.rs:239-251) -/
def WalletExt.fromTemplate (r : Nat) (rnd : EncRand) (e : Nat → Bytes) (t : FullTemplate S H J) : Res (AssetRecord S) :=
  if t.policies.any (fun p => p.identityTracing.isSome) then .err
  else W.buildInput X r rnd e t (List.replicate t.policies.length (none, []))

omit [Field S.F] [AddCommGroup S.G] [Module S.F S.G] [AddCommGroup H] in
/-- one round of `from_template_with_identity_tracing`; the issuer is not looked at -/
def outputCredStep (C : CredExt S H J) (n : Nat) (p : Policy S H J) : Res (Option (List (Ct H) × S.IPf) × List UInt32) :=
  match p.identityTracing with
  | some ip => do
    let c ← C.openCom n p.keys ip
    let attrs ← C.revealed ip
    pure (some c, attrs)
  | none => .ok (none, [])

/-- `AssetRecord::from_template_with_identity_tracing` (asset_record.rs:254-286) -/
def WalletExt.fromTemplateCred (C : CredExt S H J) (r : Nat) (rnd : EncRand) (e : Nat → Bytes) (t : FullTemplate S H J) : Res (AssetRecord S) := do
  let ids ← loopRes (outputCredStep C) 0 t.policies
  W.buildInput X r rnd e t ids

end Defs

namespace Spec
section
variable {S : Types} [Field S.F] [AddCommGroup S.G] [Module S.F S.G] {F' H E K J : Type} [Field F'] [AddCommGroup H] [Module F' H]
  [AddCommGroup E] [AddCommGroup K] (W : WalletExt S F' H E K J) (X : Ext S)

/-- What is assumed: the laws of records and memos, that both models take the same scalar of an asset type and the same ciphertexts, that memos
are held as they are, and that a key pair holds the secret key of its public key. -/
structure WalletLaws : Prop where
  records : RecLaws W.toRecExt
  scalar : ∀ t, W.asScalar t = X.asScalar t
  enc : ∀ g m r, W.enc (W.ek g) m r = W.ct (encrypt W.gBase m r g)
  om : ∀ m, W.omOf (W.om m) = m
  kp : ∀ k, W.pkView (X.kpPub k) = W.pubOf W.addr (W.secOf k)

/-- The credential is good for the commitment `sc`: under a policy of its issuer, the proof is accepted for the ciphertexts, which encrypt the
revealed attributes one by one. -/
def CredOk (C : CredExt S H J) (sc : S.SC) : Prop :=
  ∀ n k ip c attrs, C.issuerIs ip = true → C.openCom n k ip = .ok c → C.revealed ip = .ok attrs →
    c.1.length = attrs.length ∧ X.acVerify (W.ip k ip) sc (c.1.map W.act) c.2 = true ∧
    ∀ a ∈ attrs.zip c.1, ∃ r : F', a.2 = encrypt W.hBase (a.1.toNat : F') r k.attrs

/-- `bar` with `memo` was built for the key pair `k` from `o` by any honest sender -/
def AddressedTo (k : S.KP) (bar : BlindAssetRecord S) (memo : Option S.OM) (o : OpenAssetRecord S) : Prop :=
  ∃ r rnd t m, W.GoodRand r ∧ t.publicKey = X.kpPub k ∧ W.build X r rnd t = .ok (o, m) ∧ bar = o.bar ∧ memo = m.map W.om

/-- `r` is an input made of `o` with the policies `ps` by one of the three constructors; `sc` is the commitment the verifier has, `rev` says
which attributes a policy reveals -/
inductive InputOf (rev : J → List UInt32 → Prop) (o : OpenAssetRecord S) : List (Policy S H J) → Option S.SC → AssetRecord S → Prop
  | plain (sc) : InputOf rev o [] sc (fromOpen o)
  | traced (e ps sc r) : W.fromOpenTraced e o ps = .ok r → InputOf rev o ps sc r
  | cred (C e ps sc r) : CredOk W X C sc → (∀ ip a, C.revealed ip = .ok a → rev ip a) → W.fromOpenCred C e o ps = .ok r →
      InputOf rev o ps (some sc) r

/-- `r` is an output made of the template `t`, with the opening `o`, by one of the two constructors; a credential has to be of the issuer that
the policies name -/
inductive OutputOf (rev : J → List UInt32 → Prop) (t : FullTemplate S H J) : Option S.SC → AssetRecord S → Prop
  | plain (s rnd e sc r) : W.GoodRand s → W.fromTemplate X s rnd e t = .ok r → OutputOf rev t sc r
  | cred (C s rnd e sc r) : W.GoodRand s → CredOk W X C sc → (∀ ip a, C.revealed ip = .ok a → rev ip a) →
      (∀ p ∈ t.policies, ∀ ip, p.identityTracing = some ip → C.issuerIs ip = true) →
      W.fromTemplateCred X C s rnd e t = .ok r → OutputOf rev t (some sc) r

/-- An input of a payment: the key, what was published of the record, the policies of the asset, the commitment, and the record that was made -/
structure Spent (S : Types) (H J : Type) where
  key : S.KP
  bar : BlindAssetRecord S
  memo : Option S.OM
  policies : List (Policy S H J)
  sc : Option S.SC
  record : AssetRecord S

/-- An output of a payment -/
structure Paid (S : Types) (H J : Type) where
  template : FullTemplate S H J
  sc : Option S.SC
  record : AssetRecord S

/-- an honest sender made the record for the key, and the owner opened it and made an input of it -/
def Spent.Ok (rev : J → List UInt32 → Prop) (i : Spent S H J) : Prop :=
  (∃ o, AddressedTo W X i.key i.bar i.memo o) ∧ ∃ o, W.receive i.key i.bar i.memo = .ok o ∧ InputOf W X rev o i.policies i.sc i.record

end
end Spec

theorem loopRes_ok {α β : Type} (f : Nat → α → Res β) (n : Nat) (l : List α) (bs : List β) (h : loopRes f n l = .ok bs) :
    List.Forall₂ (fun a b => ∃ k, f k a = .ok b) l bs := by
  induction l generalizing n bs with
  | nil =>
    cases h
    exact .nil
  | cons a l ih =>
    unfold loopRes at h
    obtain ⟨b, h1, h⟩ := Res.bind_eq_ok.mp h
    obtain ⟨bs', h2, h⟩ := Res.bind_eq_ok.mp h
    cases h
    exact .cons ⟨n, h1⟩ (ih _ _ h2)

theorem forall₂_left {α β : Type} {R : α → β → Prop} {l : List α} {l' : List β} (h : List.Forall₂ R l l') {a : α} (ha : a ∈ l) : ∃ b, R a b := by
  induction h with
  | nil => cases ha
  | @cons x y _ _ hxy _ ih =>
    rcases List.mem_cons.mp ha with rfl | ha
    exacts [⟨y, hxy⟩, ih ha]

theorem loopRes_exists {α β : Type} (f : Nat → α → Res β) (n : Nat) (l : List α) (h : ∀ a ∈ l, ∀ k, ∃ b, f k a = .ok b) :
    ∃ bs, loopRes f n l = .ok bs := by
  induction l generalizing n with
  | nil => exact ⟨[], rfl⟩
  | cons a l ih =>
    obtain ⟨b, h1⟩ := h a (by simp) n
    obtain ⟨bs, h2⟩ := ih (n + 1) (fun x hx => h x (by simp [hx]))
    refine ⟨b :: bs, ?_⟩
    unfold loopRes
    rw [h1, Res.bind_ok, h2, Res.bind_ok]
    rfl

section
variable {S : Types} [Field S.F] [AddCommGroup S.G] [Module S.F S.G] {F' H E K J : Type} [Field F'] [AddCommGroup H] [Module F' H]
  [AddCommGroup E] [AddCommGroup K] {W : WalletExt S F' H E K J} {X : Ext S}

omit [Field F'] [AddCommGroup H] [Module F' H] in
theorem makeMemo_exists (hW : WalletLaws W X) (e : Bytes) (p : Policy S H J) (ca ct : Bool) (o : OpenAssetRecord S) (attrs : List (UInt32 × Ct H)) :
    ∃ m, W.makeMemo e p ca ct o attrs = .ok m := by
  unfold WalletExt.makeMemo TraceExt.newMemo MemoPrims.hybridEncX
  rw [dif_pos (keyFromX_len _ hW.records.memo _ _)]
  exact ⟨_, rfl⟩

omit [Field F'] [AddCommGroup H] [Module F' H] in
/-- a memo of an asset tracing policy is what the tracing proof speaks of -/
theorem makeMemo_matches (hW : WalletLaws W X) (e : Bytes) (p : Policy S H J) (o : OpenAssetRecord S) (attrs : List (UInt32 × Ct H))
    (m : FullMemo S.G H) (h : W.makeMemo e p o.bar.recordType.1 o.bar.recordType.2 o attrs = .ok m) :
    (W.viewMemo m).lockAttributes = attrs.map (fun a => W.act a.2) ∧
      (p.assetTracing = true → MemoMatches W.enc X o (W.viewPolicy p).encKey (W.viewMemo m)) := by
  unfold WalletExt.makeMemo TraceExt.newMemo MemoPrims.hybridEncX at h
  rw [dif_pos (keyFromX_len _ hW.records.memo _ _)] at h
  obtain rfl := Res.ok.inj h
  obtain ⟨h1, h2⟩ := splitU64_toNat o.amount
  refine ⟨by simp [WalletExt.viewMemo, TraceExt.memoWith], fun ht => ?_⟩
  unfold MemoMatches
  cases ha : o.bar.amount <;> cases hty : o.bar.assetType <;>
    simp [WalletExt.viewMemo, TraceExt.memoWith, WalletExt.viewPolicy, BlindAssetRecord.recordType, ha, hty, XfrAmount.isConfidential,
      XfrAssetType.isConfidential, ht, hW.enc, hW.scalar, h1, h2]

variable (W X) in
/-- what one round of a constructor makes -/
def RoundOf (rev : J → List UInt32 → Prop) (o : OpenAssetRecord S) (sc : Option S.SC) (p : Policy S H J) (x : FullMemo S.G H × Option S.IPf) :
    Prop :=
  ∃ e as, W.makeMemo e p o.bar.recordType.1 o.bar.recordType.2 o as = .ok x.1 ∧
    (∀ a ∈ as, ∃ r : F', a.2 = encrypt W.hBase (a.1.toNat : F') r p.keys.attrs) ∧
    match p.identityTracing, x.2 with
    | some ip, some pf => rev ip (as.map (·.1)) ∧ ∃ s, sc = some s ∧ X.acVerify (W.ip p.keys ip) s (as.map (fun a => W.act a.2)) pf = true
    | none, none => as = []
    | _, _ => False

variable (W) in
/-- the record that the constructors put together -/
def recordOf (o : OpenAssetRecord S) (ps : List (Policy S H J)) (l : List (FullMemo S.G H × Option S.IPf)) (om : Option S.OM) : AssetRecord S :=
  ⟨o, ps.map W.viewPolicy, l.map (·.2), l.map (W.viewMemo ·.1), om⟩

theorem zip_snd_map {α β γ : Type} (f : β → γ) (l : List α) (l' : List β) (h : l'.length = l.length) :
    (l.zip l').map (fun a => f a.2) = l'.map f := by
  rw [show (fun a : α × β => f a.2) = f ∘ Prod.snd from rfl, ← List.map_map, List.map_snd_zip (by omega)]

theorem zip_fst_map {α β : Type} (l : List α) (l' : List β) (h : l'.length = l.length) : (l.zip l').map (·.1) = l := by
  rw [List.map_fst_zip (by omega)]

omit [AddCommGroup E] [AddCommGroup K] in
theorem input_rounds (rev : J → List UInt32 → Prop) (o : OpenAssetRecord S) (ps : List (Policy S H J)) (sc : Option S.SC) (r : AssetRecord S)
    (h : InputOf W X rev o ps sc r) : ∃ l, List.Forall₂ (RoundOf W X rev o sc) ps l ∧ r = recordOf W o ps l none := by
  cases h with
  | plain => exact ⟨[], .nil, rfl⟩
  | traced e ps sc r h =>
    obtain ⟨l, h1, h⟩ := Res.bind_eq_ok.mp h
    cases h
    refine ⟨l, (loopRes_ok _ _ _ _ h1).imp ?_, rfl⟩
    rintro p x ⟨n, hx⟩
    unfold WalletExt.inputStep at hx
    split at hx
    · cases hx
    · rename_i hi
      obtain ⟨m, h2, hx⟩ := Res.bind_eq_ok.mp hx
      cases hx
      refine ⟨e n, [], h2, by simp, ?_⟩
      rw [Option.not_isSome_iff_eq_none.mp hi]
  | cred C e ps sc r hC hrev h =>
    obtain ⟨l, h1, h⟩ := Res.bind_eq_ok.mp h
    cases h
    refine ⟨l, (loopRes_ok _ _ _ _ h1).imp ?_, rfl⟩
    rintro p x ⟨n, hx⟩
    unfold WalletExt.inputCredStep at hx
    obtain ⟨y, h2, hx⟩ := Res.bind_eq_ok.mp hx
    obtain ⟨m, h3, hx⟩ := Res.bind_eq_ok.mp hx
    cases hx
    unfold CredExt.identity at h2
    cases hi : p.identityTracing with
    | none =>
      rw [hi] at h2
      cases h2
      exact ⟨e n, [], h3, by simp, by rw [hi]⟩
    | some ip =>
      rw [hi] at h2
      simp only at h2
      split at h2
      · cases h2
      · rename_i hiss
        obtain ⟨c, h4, h2⟩ := Res.bind_eq_ok.mp h2
        obtain ⟨attrs, h5, h2⟩ := Res.bind_eq_ok.mp h2
        cases h2
        obtain ⟨g1, g2, g3⟩ := hC n p.keys ip c attrs (by simpa using hiss) h4 h5
        refine ⟨e n, _, h3, g3, ?_⟩
        rw [hi]
        simp only
        rw [zip_fst_map _ _ g1, zip_snd_map _ _ _ g1]
        exact ⟨hrev _ _ h5, sc, rfl, g2⟩

omit [Field F'] [AddCommGroup H] [Module F' H] in
/-- what the builder makes, whatever the key -/
theorem build_facts (r : Nat) (rnd : EncRand) (t : Template S) (o : OpenAssetRecord S) (m : Option OwnerMemo)
    (h : W.build X r rnd t = .ok (o, m)) : o.bar.recordType = (t.confAmount, t.confType) ∧ o.amount = t.amount ∧ o.assetType = t.assetType ∧
      o.bar.publicKey = t.publicKey := by
  obtain ⟨am, ty, ca, ct, pk⟩ := t
  unfold RecExt.build at h
  rcases ca with _ | _ <;> rcases ct with _ | _ <;> simp only at h
  · simp only [Res.ok.injEq, Prod.mk.injEq] at h
    obtain ⟨rfl, rfl⟩ := h
    exact ⟨rfl, rfl, rfl, rfl⟩
  all_goals
    split at h
    · simp only [Res.ok.injEq, Prod.mk.injEq] at h
      obtain ⟨rfl, rfl⟩ := h
      exact ⟨rfl, rfl, rfl, rfl⟩
    · simp at h

theorem buildInput_rounds (rev : J → List UInt32 → Prop) (t : FullTemplate S H J) (sc : Option S.SC) (r : AssetRecord S) (s : Nat) (rnd : EncRand)
    (e : Nat → Bytes) (ids : List (Option (List (Ct H) × S.IPf) × List UInt32))
    (hids : List.Forall₂ (fun p i => match p.identityTracing, i.1 with
      | some ip, some c => c.1.length = i.2.length ∧ rev ip i.2 ∧ (∃ s, sc = some s ∧ X.acVerify (W.ip p.keys ip) s (c.1.map W.act) c.2 = true) ∧
          ∀ a ∈ i.2.zip c.1, ∃ r : F', a.2 = encrypt W.hBase (a.1.toNat : F') r p.keys.attrs
      | none, none => True
      | _, _ => False) t.policies ids)
    (h : W.buildInput X s rnd e t ids = .ok r) :
    ∃ o m l, W.build X s rnd t.toTemplate = .ok (o, m) ∧ List.Forall₂ (RoundOf W X rev o sc) t.policies l ∧
      r = recordOf W o t.policies l (m.map W.om) := by
  unfold WalletExt.buildInput at h
  rw [if_neg (not_not.mpr hids.length_eq)] at h
  split at h
  · cases h
  rename_i hany
  obtain ⟨⟨o, m⟩, h1, hgo⟩ := Res.bind_eq_ok.mp h
  clear h
  obtain ⟨l, h2, h⟩ := Res.bind_eq_ok.mp hgo
  cases h
  have h3 := loopRes_ok _ _ _ _ h2
  obtain ⟨f1, -⟩ := build_facts _ _ _ _ _ h1
  refine ⟨o, m, l.zip (ids.map (fun i => i.1.map (·.2))), h1, ?_, ?_⟩
  · simp only at h3
    clear h2 h1 hany hgo
    generalize t.policies = ps at hids h3
    induction hids generalizing l with
    | nil => cases h3; exact .nil
    | @cons p i ps ids hi _ ih =>
      rw [List.zip_cons_cons] at h3
      obtain ⟨m', l', ⟨k, hk⟩, h4, rfl⟩ := List.forall₂_cons_left_iff.mp h3
      refine .cons ?_ (ih _ h4)
      refine ⟨e k, attrsOf i, by rw [f1]; exact hk, ?_⟩
      obtain ⟨i1, i2⟩ := i
      simp only at hi
      cases hp : p.identityTracing with
      | none =>
        rw [hp] at hi
        cases i1 with
        | none => exact ⟨by simp [attrsOf], rfl⟩
        | some c => exact absurd hi (by simp)
      | some ip =>
        rw [hp] at hi
        cases i1 with
        | none => exact absurd hi (by simp)
        | some c =>
          obtain ⟨g1, g2, g3, g4⟩ := hi
          refine ⟨g4, ?_⟩
          simp only [attrsOf, Option.map_some]
          rw [zip_fst_map _ _ g1, zip_snd_map _ _ _ g1]
          exact ⟨g2, g3⟩
  · have hl : l.length = ids.length := by
      have := h3.length_eq
      have := hids.length_eq
      simp_all
    unfold recordOf
    rw [List.map_snd_zip (by simp [hl])]
    congr 1
    rw [show (fun x : FullMemo S.G H × Option S.IPf => W.viewMemo x.1) = W.viewMemo ∘ Prod.fst from rfl, ← List.map_map,
      List.map_fst_zip (by simp [hl])]

theorem output_rounds (rev : J → List UInt32 → Prop) (t : FullTemplate S H J) (sc : Option S.SC) (r : AssetRecord S)
    (h : OutputOf W X rev t sc r) : ∃ s rnd o m l, W.GoodRand s ∧ W.build X s rnd t.toTemplate = .ok (o, m) ∧
      List.Forall₂ (RoundOf W X rev o sc) t.policies l ∧ r = recordOf W o t.policies l (m.map W.om) := by
  cases h with
  | plain s rnd e sc r hs h =>
    unfold WalletExt.fromTemplate at h
    split at h
    · cases h
    rename_i hno
    obtain ⟨o, m, l, h1, h2, h3⟩ := buildInput_rounds rev t sc r s rnd e _ (by
      have hno' : ∀ p ∈ t.policies, p.identityTracing = none := fun p hp => by
        cases hi : p.identityTracing with
        | none => rfl
        | some _ => exact absurd (List.any_eq_true.mpr ⟨p, hp, by rw [hi]; rfl⟩) hno
      generalize t.policies = ps at hno'
      induction ps with
      | nil => exact .nil
      | cons p ps ih =>
        rw [List.length_cons, List.replicate_succ]
        refine .cons ?_ (ih (fun q hq => hno' q (by simp [hq])))
        rw [hno' p (by simp)]
        trivial) h
    exact ⟨s, rnd, o, m, l, hs, h1, h2, h3⟩
  | cred C s rnd e sc r hs hC hrev hiss h =>
    obtain ⟨ids, h1, h⟩ := Res.bind_eq_ok.mp h
    obtain ⟨o, m, l, h2, h3, h4⟩ := buildInput_rounds rev t (some sc) r s rnd e _ (by
      have := loopRes_ok _ _ _ _ h1
      clear h1 h
      generalize t.policies = ps at this hiss
      induction this with
      | nil => exact .nil
      | @cons p i ps ids hi _ ih =>
        refine .cons ?_ (ih (fun q hq => hiss q (by simp [hq])))
        obtain ⟨n, hi⟩ := hi
        unfold outputCredStep at hi
        cases hp : p.identityTracing with
        | none =>
          rw [hp] at hi
          cases hi
          trivial
        | some ip =>
          rw [hp] at hi
          obtain ⟨c, h4, hi⟩ := Res.bind_eq_ok.mp hi
          obtain ⟨attrs, h5, hi⟩ := Res.bind_eq_ok.mp hi
          cases hi
          obtain ⟨g1, g2, g3⟩ := hC n p.keys ip c attrs (hiss p (by simp) ip hp) h4 h5
          exact ⟨g1, hrev _ _ h5, ⟨sc, rfl, g2⟩, g3⟩) h
    exact ⟨s, rnd, o, m, l, hs, h2, h3, h4⟩

/-- the records of the constructors meet what the verifier asks -/
theorem rounds_usable (hW : WalletLaws W X) (rev : J → List UInt32 → Prop) (o : OpenAssetRecord S) (sc : Option S.SC) (ps : List (Policy S H J))
    (l : List (FullMemo S.G H × Option S.IPf)) (om : Option S.OM) (h : List.Forall₂ (RoundOf W X rev o sc) ps l) :
    (∀ pm ∈ (recordOf W o ps l om).tracingPolicies.zip (recordOf W o ps l om).tracersMemos, pm.1.assetTracing = true →
      MemoMatches W.enc X o pm.1.encKey pm.2) ∧ IdentityOk X (recordOf W o ps l om) sc := by
  have hl := h.length_eq
  refine ⟨?_, by simp [recordOf, hl], by simp [recordOf, hl], ?_⟩
  · simp only [recordOf]
    clear hl
    induction h with
    | nil => simp
    | @cons p x ps l hx _ ih =>
      intro pm hpm ht
      rw [List.map_cons, List.map_cons, List.zip_cons_cons] at hpm
      rcases List.mem_cons.mp hpm with rfl | hpm
      · obtain ⟨e, as, h1, -⟩ := hx
        exact (makeMemo_matches hW e p o as x.1 h1).2 ht
      · exact ih pm hpm ht
  · simp only [recordOf]
    clear hl
    induction h with
    | nil => simp
    | @cons p x ps l hx _ ih =>
      intro e he
      rw [List.map_cons, List.map_cons, List.map_cons, List.zip_cons_cons, List.zip_cons_cons] at he
      rcases List.mem_cons.mp he with rfl | he
      · obtain ⟨e, as, h1, -, h2⟩ := hx
        obtain ⟨m, pf⟩ := x
        simp only [WalletExt.viewPolicy]
        simp only at h2
        cases hp : p.identityTracing <;> rw [hp] at h2 <;> cases pf <;> simp only [Option.map_none, Option.map_some] at h2 ⊢
        · obtain ⟨-, s, h3, h4⟩ := h2
          refine ⟨s, h3, ?_⟩
          rw [(makeMemo_matches hW e p o as m h1).1]
          exact h4
      · exact ih e he

omit [Field F'] [AddCommGroup H] [Module F' H] in
/-- C109: The owner of a record that an honest sender made opens it with the key pair and what the note says of it. -/
theorem C109_received (hW : WalletLaws W X) (hEnc : Encoding X) (k : S.KP) (bar : BlindAssetRecord S) (memo : Option S.OM) (o : OpenAssetRecord S)
    (h : AddressedTo W X k bar memo o) : W.receive k bar memo = .ok o ∧ WellFormed X o ∧ o.bar = bar ∧ bar.publicKey = X.kpPub k := by
  obtain ⟨r, rnd, t, m, hr, hk, hb, rfl, rfl⟩ := h
  obtain ⟨h1, -, -, h2, -⟩ := C20_open_built W.toRecExt hW.records X W.addr r hr rnd t (W.secOf k) (by rw [hk]; exact hW.kp k) o m hb
  refine ⟨?_, C20_built_well_formed _ X hEnc r rnd t o m hb, rfl, h2.trans hk⟩
  unfold WalletExt.receive
  rw [Option.map_map, show W.omOf ∘ W.om = id from funext hW.om, Option.map_id]
  exact h1

/-- C109: An input made by any of the three constructors is one that the verifier takes with these policies and this commitment. -/
theorem C109_input (hW : WalletLaws W X) (rev : J → List UInt32 → Prop) (o : OpenAssetRecord S) (ps : List (Policy S H J)) (sc : Option S.SC)
    (r : AssetRecord S) (h : InputOf W X rev o ps sc r) : r.oar = o ∧ r.tracingPolicies = ps.map W.viewPolicy ∧ r.ownerMemo = none ∧
      (∀ pm ∈ r.tracingPolicies.zip r.tracersMemos, pm.1.assetTracing = true → MemoMatches W.enc X r.oar pm.1.encKey pm.2) ∧
      IdentityOk X r sc := by
  obtain ⟨l, h1, rfl⟩ := input_rounds rev o ps sc r h
  obtain ⟨h2, h3⟩ := rounds_usable hW rev o sc ps l none h1
  exact ⟨rfl, rfl, rfl, h2, h3⟩

/-- C109: An output made by any of the two constructors is one that the verifier takes, holds what the template says, and is made for the key
of the template. -/
theorem C109_output (hW : WalletLaws W X) (hEnc : Encoding X) (rev : J → List UInt32 → Prop) (t : FullTemplate S H J) (sc : Option S.SC)
    (r : AssetRecord S) (h : OutputOf W X rev t sc r) : r.oar.amount = t.amount ∧ r.oar.assetType = t.assetType ∧
      r.oar.bar.publicKey = t.publicKey ∧ r.oar.bar.recordType = (t.confAmount, t.confType) ∧ WellFormed X r.oar ∧
      r.tracingPolicies = t.policies.map W.viewPolicy ∧
      (∀ pm ∈ r.tracingPolicies.zip r.tracersMemos, pm.1.assetTracing = true → MemoMatches W.enc X r.oar pm.1.encKey pm.2) ∧
      IdentityOk X r sc ∧ ∀ k, X.kpPub k = t.publicKey → AddressedTo W X k r.oar.bar r.ownerMemo r.oar := by
  obtain ⟨s, rnd, o, m, l, hs, hb, h1, rfl⟩ := output_rounds rev t sc r h
  obtain ⟨h2, h3⟩ := rounds_usable hW rev o sc t.policies l (m.map W.om) h1
  obtain ⟨f1, f2, f3, f4⟩ := build_facts _ _ _ _ _ hb
  exact ⟨f2, f3, f4, f1, C20_built_well_formed _ X hEnc s rnd _ o m hb, rfl, h2, h3, fun k hk => ⟨s, rnd, _, m, hs, hk.symm, hb, rfl, rfl⟩⟩

theorem Res.unwrap_eq_ok {α : Type} {o : Option α} {a : α} (h : Res.unwrap o = .ok a) : o = some a := by
  cases o with
  | none => cases h
  | some b => rw [Res.ok.inj h]

/-- C109: The tracer of the `j`-th policy reads the hidden amount and the hidden type of the record from its memo, and the attributes the policy
reveals; what is public is not in the memo, nor is anything but the attributes when the policy does not trace the asset. -/
theorem C109_traced [DecidableEq S.G] [DecidableEq H] (hW : WalletLaws W X) (rev : J → List UInt32 → Prop) (o : OpenAssetRecord S)
    (ps : List (Policy S H J)) (sc : Option S.SC) (r : AssetRecord S)
    (h : InputOf W X rev o ps sc r ∨ ∃ t, t.policies = ps ∧ OutputOf W X rev t sc r ∧ r.oar = o)
    (j : Nat) (p : Policy S H J) (hj : ps[j]? = some p) (s : S.F) (sa : F') (x : Bytes) (hk : p.keys = (W.generate s sa x).2) :
    ∃ m attrs, r.tracersMemos[j]? = some (W.viewMemo m) ∧ W.decryptMemo m (W.generate s sa x).1 =
      .ok (if p.assetTracing ∧ o.bar.recordType.1 then some o.amount else none,
        if p.assetTracing ∧ o.bar.recordType.2 then some o.assetType else none, attrs) ∧
      match p.identityTracing with
      | some ip => rev ip attrs
      | none => attrs = [] := by
  have key : ∃ l om, List.Forall₂ (RoundOf W X rev o sc) ps l ∧ r = recordOf W o ps l om := by
    rcases h with h | ⟨t, rfl, h, rfl⟩
    · obtain ⟨l, h1, h2⟩ := input_rounds rev o ps sc r h
      exact ⟨l, none, h1, h2⟩
    · obtain ⟨s, rnd, o, m, l, -, -, h1, rfl⟩ := output_rounds rev t sc r h
      exact ⟨l, _, h1, rfl⟩
  obtain ⟨l, om, hl, rfl⟩ := key
  have hlt : j < l.length := by
    rw [← hl.length_eq]
    exact (List.getElem?_eq_some_iff.mp hj).1
  have hround : RoundOf W X rev o sc p l[j] := by
    have := hl.get (i := j) (by rw [hl.length_eq]; exact hlt) hlt
    rwa [List.get_eq_getElem, List.get_eq_getElem, (List.getElem?_eq_some_iff.mp hj).2] at this
  obtain ⟨e, as, h1, h2, h3⟩ := hround
  have hT : TraceLaws W.toTraceExt := ⟨hW.records.memo, hW.records.at_len, hW.records.at_rt⟩
  have hnew := Res.unwrap_eq_ok h1
  rw [hk] at hnew h2
  obtain ⟨m, g1, a, g2, g3⟩ := C21_decrypt_returns W.toTraceExt hT s sa x e
    (if p.assetTracing then if o.bar.recordType.1 then some ((splitU64 o.amount).1, (splitU64 o.amount).2, o.amountBlinds.1, o.amountBlinds.2)
      else none else none)
    (if p.assetTracing then if o.bar.recordType.2 then some (o.assetType, o.typeBlind) else none else none) as h2
  obtain rfl := Option.some.inj (hnew.symm.trans g1)
  refine ⟨l[j].1, as.map (·.1), ?_, ?_, ?_⟩
  · simp only [recordOf]
    rw [List.getElem?_map, List.getElem?_eq_getElem hlt]
    rfl
  · rw [g2]
    obtain ⟨s1, s2⟩ := splitU64_toNat o.amount
    congr 2
    · by_cases c1 : p.assetTracing = true <;> by_cases c2 : o.bar.recordType.1 = true <;> simp only [c1, c2, if_true, if_false, and_self, and_false,
        and_true, Bool.false_eq_true, Option.map_none, Option.map_some] at g3 ⊢
      · cases a with
        | none => cases g3
        | some a =>
          congr 1
          apply UInt64.toNat_inj.mp
          have := Option.some.inj g3
          rw [this, s1, s2]
          omega
      all_goals exact Option.map_eq_none_iff.mp g3
    · congr 1
      by_cases c1 : p.assetTracing = true <;> by_cases c2 : o.bar.recordType.2 = true <;> simp [c1, c2]
  · cases hp : p.identityTracing <;> rw [hp] at h3 <;> cases hpf : l[j].2 <;> rw [hpf] at h3 <;> simp only at h3 ⊢
    · rw [h3]; rfl
    · exact h3.1

omit [Field F'] [AddCommGroup H] [Module F' H] in
/-- C109: The constructors succeed: for an input, without a credential exactly if no policy asks for an identity; with a credential if it is of
the issuers of the policies and can be opened; for an output, if moreover the template is for an Ed25519 or secp256k1 key. -/
theorem C109_made (hW : WalletLaws W X) (e : Nat → Bytes) (o : OpenAssetRecord S) (ps : List (Policy S H J)) (C : CredExt S H J) (s : Nat) (rnd : EncRand)
    (t : FullTemplate S H J) (sk : SecKey W.toKeyPrims) (hk : ∀ k, sk ≠ .address k) (hpk : W.pkView t.publicKey = W.pubOf W.addr sk)
    (hg : ∀ key msg, ∃ c, W.gcmEnc key msg = some c) :
    ((∃ r, W.fromOpenTraced e o ps = .ok r) ↔ ∀ p ∈ ps, p.identityTracing = none) ∧
    ((∀ p ∈ ps, ∀ ip, p.identityTracing = some ip → C.issuerIs ip = true ∧ (∃ a, C.revealed ip = .ok a) ∧ ∀ n, ∃ c, C.openCom n p.keys ip = .ok c) →
      ∃ r, W.fromOpenCred C e o ps = .ok r) ∧
    ((∃ r, W.fromTemplate X s rnd e t = .ok r) ↔ ∀ p ∈ t.policies, p.identityTracing = none) ∧
    ((∀ p ∈ t.policies, ∀ ip, p.identityTracing = some ip → (∃ a, C.revealed ip = .ok a) ∧ ∀ n, ∃ c, C.openCom n p.keys ip = .ok c) →
      ∃ r, W.fromTemplateCred X C s rnd e t = .ok r) := by
  obtain ⟨b, m, hb⟩ := C20_build_succeeds_partial W.toRecExt hW.records X W.addr s rnd t.toTemplate sk hk hpk hg
  have build : ∀ ids : List (Option (List (Ct H) × S.IPf) × List UInt32), List.Forall₂ (fun p i => p.identityTracing = none → i.1 = none) t.policies ids →
      ∃ r, W.buildInput X s rnd e t ids = .ok r := by
    intro ids hids
    unfold WalletExt.buildInput
    rw [if_neg (not_not.mpr hids.length_eq), if_neg]
    · obtain ⟨l, hl⟩ := loopRes_exists (fun n (x : Policy S H J × _) => W.makeMemo (e n) x.1 t.confAmount t.confType b (attrsOf x.2)) 0 (t.policies.zip ids)
        (fun x _ n => makeMemo_exists hW _ _ _ _ _ _)
      rw [hb, Res.bind_ok, hl, Res.bind_ok]
      exact ⟨_, rfl⟩
    · clear hb
      generalize t.policies = ps at hids
      induction hids with
      | nil => simp
      | @cons p i ps ids hi _ ih =>
        rw [List.zip_cons_cons, List.any_cons, Bool.or_eq_true]
        refine not_or.mpr ⟨fun hc => ?_, ih⟩
        simp only [Bool.and_eq_true, Option.isNone_iff_eq_none] at hc
        rw [hi hc.1] at hc
        simp at hc
  refine ⟨⟨?_, fun h => ?_⟩, fun h => ?_, ⟨?_, fun h => ?_⟩, fun h => ?_⟩
  · rintro ⟨r, h⟩ p hp
    obtain ⟨l, h1, -⟩ := Res.bind_eq_ok.mp h
    obtain ⟨x, n, hx⟩ := forall₂_left (loopRes_ok _ _ _ _ h1) hp
    unfold WalletExt.inputStep at hx
    split at hx
    · cases hx
    · rename_i hn
      exact Option.not_isSome_iff_eq_none.mp hn
  · obtain ⟨l, hl⟩ := loopRes_exists (W.inputStep e o) 0 ps (fun p hp n => by
      obtain ⟨m, hm⟩ := makeMemo_exists hW (e n) p o.bar.recordType.1 o.bar.recordType.2 o []
      unfold WalletExt.inputStep
      rw [h p hp, hm]
      exact ⟨_, rfl⟩)
    unfold WalletExt.fromOpenTraced
    rw [hl]
    exact ⟨_, rfl⟩
  · obtain ⟨l, hl⟩ := loopRes_exists (W.inputCredStep C e o) 0 ps (fun p hp n => by
      have : ∃ x, C.identity n p = .ok x := by
        unfold CredExt.identity
        cases hi : p.identityTracing with
        | none => exact ⟨_, rfl⟩
        | some ip =>
          obtain ⟨h1, ⟨a, h2⟩, h3⟩ := h p hp ip hi
          obtain ⟨c, h3⟩ := h3 n
          simp only [h1, not_true_eq_false, if_false]
          rw [h3, Res.bind_ok, h2, Res.bind_ok]
          exact ⟨_, rfl⟩
      obtain ⟨x, hx⟩ := this
      obtain ⟨m, hm⟩ := makeMemo_exists hW (e n) p o.bar.recordType.1 o.bar.recordType.2 o x.1
      unfold WalletExt.inputCredStep
      rw [hx, Res.bind_ok, hm]
      exact ⟨_, rfl⟩)
    unfold WalletExt.fromOpenCred
    rw [hl]
    exact ⟨_, rfl⟩
  · rintro ⟨r, h⟩ p hp
    unfold WalletExt.fromTemplate at h
    split at h
    · cases h
    · rename_i hn
      cases hi : p.identityTracing with
      | none => rfl
      | some _ => exact absurd (List.any_eq_true.mpr ⟨p, hp, by rw [hi]; rfl⟩) hn
  · unfold WalletExt.fromTemplate
    rw [if_neg]
    · refine build _ ?_
      generalize t.policies = ps
      induction ps with
      | nil => exact .nil
      | cons p ps ih =>
        rw [List.length_cons, List.replicate_succ]
        exact .cons (fun _ => rfl) ih
    · intro hc
      obtain ⟨p, hp, hs⟩ := List.any_eq_true.mp hc
      rw [h p hp] at hs
      cases hs
  · obtain ⟨ids, hids⟩ := loopRes_exists (outputCredStep C) 0 t.policies (fun p hp n => by
      unfold outputCredStep
      cases hi : p.identityTracing with
      | none => exact ⟨_, rfl⟩
      | some ip =>
        obtain ⟨⟨a, h2⟩, h3⟩ := h p hp ip hi
        obtain ⟨c, h3⟩ := h3 n
        simp only
        rw [h3, Res.bind_ok, h2, Res.bind_ok]
        exact ⟨_, rfl⟩)
    unfold WalletExt.fromTemplateCred
    rw [hids, Res.bind_ok]
    refine build ids ((loopRes_ok _ _ _ _ hids).imp ?_)
    rintro p i ⟨n, hi⟩ hp
    unfold outputCredStep at hi
    rw [hp] at hi
    cases hi
    rfl

section
variable [DecidableEq S.CG] [DecidableEq S.AT] [DecidableEq S.EK] [DecidableEq S.F] [DecidableEq S.PK]

/-- C109: The owners of records, who have their key pairs and what the notes say of the records, make a note for every balanced payment within the
limits of C99, with the policies and identities that the assets ask for; it is accepted under these policies.  Every output is opened by the
owner of the key it is made for, from the note alone, so that the theorem applies to it, and the memos of the note are those of its records. -/
theorem C109_spend (hW : WalletLaws W X) (hE : Provers X) (hEnc : Encoding X) (hC : Complete X) (hB : Batching X) (hP : PegComplete W.enc X)
    (hinj : ∀ a b, X.pkBytes a = X.pkBytes b → a = b) (hser : ∀ b, (X.ser b).isSome)
    (hsign : ∀ k m, ∃ s, X.kpSign k m = some s ∧ X.sigVerify (X.kpPub k) m s = true) (rev : J → List UInt32 → Prop)
    (I : List (Spent S H J)) (O : List (Paid S H J)) (hI : ∀ i ∈ I, i.Ok W X rev) (hO : ∀ o ∈ O, OutputOf W X rev o.template o.sc o.record)
    (hne : I ≠ []) (hbal : ∀ t, openTotal t (I.map (·.record)) = openTotal t (O.map (·.record)))
    (hlim : Limits X (I.map (·.record)) (O.map (·.record))) :
    ∃ note, X.genNote (I.map (·.record)) (O.map (·.record)) (I.map (·.key)) = some note ∧
      X.verifyNote note ⟨true, I.map (fun i => i.policies.map W.viewPolicy), I.map (·.sc),
        O.map (fun o => o.template.policies.map W.viewPolicy), O.map (·.sc)⟩ = some () ∧
      note.body.inputs = I.map (·.bar) ∧ note.body.tracingMemos = (I.map (·.record) ++ O.map (·.record)).map (·.tracersMemos) ∧
      ∀ (j : Nat) (o : Paid S H J), O[j]? = some o → ∃ bar memo op, note.body.outputs[j]? = some bar ∧ note.body.ownersMemos[j]? = some memo ∧
        op.amount = o.template.amount ∧ op.assetType = o.template.assetType ∧ bar.recordType = (o.template.confAmount, o.template.confType) ∧
        ∀ k, X.kpPub k = o.template.publicKey → AddressedTo W X k bar memo op := by
  have hi : ∀ i ∈ I, ∃ o, AddressedTo W X i.key i.bar i.memo o ∧ InputOf W X rev o i.policies i.sc i.record := by
    intro i hi
    obtain ⟨⟨o, h1⟩, o', h2, h3⟩ := hI i hi
    obtain rfl := Res.ok.inj ((C109_received hW hEnc _ _ _ o h1).1.symm.trans h2)
    exact ⟨o, h1, h3⟩
  obtain ⟨note, h1, h2⟩ := C99_made_and_accepted hE W.enc hEnc hC hB hP hinj hser hsign (I.map (·.record)) (O.map (·.record)) (I.map (·.key))
    ⟨true, I.map (fun i => i.policies.map W.viewPolicy), I.map (·.sc), O.map (fun o => o.template.policies.map W.viewPolicy), O.map (·.sc)⟩
    (by
      intro r hr
      rcases List.mem_append.mp hr with hr | hr
      · obtain ⟨i, h, rfl⟩ := List.mem_map.mp hr
        obtain ⟨o, g1, g2⟩ := hi i h
        rw [(C109_input hW rev o _ _ _ g2).1]
        exact (C109_received hW hEnc _ _ _ o g1).2.1
      · obtain ⟨o, h, rfl⟩ := List.mem_map.mp hr
        exact (C109_output hW hEnc rev _ _ _ (hO o h)).2.2.2.2.1)
    (by
      intro r hr
      rcases List.mem_append.mp hr with hr | hr
      · obtain ⟨i, h, rfl⟩ := List.mem_map.mp hr
        obtain ⟨o, g1, g2⟩ := hi i h
        exact (C109_input hW rev o _ _ _ g2).2.2.2.1
      · obtain ⟨o, h, rfl⟩ := List.mem_map.mp hr
        exact (C109_output hW hEnc rev _ _ _ (hO o h)).2.2.2.2.2.2.1)
    rfl
    (by
      rw [List.map_map]
      refine List.map_congr_left fun i h => ?_
      obtain ⟨o, g1, g2⟩ := hi i h
      exact (C109_input hW rev o _ _ _ g2).2.1.symm)
    (by
      rw [List.map_map]
      exact List.map_congr_left fun o h => (C109_output hW hEnc rev _ _ _ (hO o h)).2.2.2.2.2.1.symm)
    (by simp) (by simp)
    (by
      intro e he
      rw [List.zip_map'] at he
      obtain ⟨i, h, rfl⟩ := List.mem_map.mp he
      obtain ⟨o, g1, g2⟩ := hi i h
      exact (C109_input hW rev o _ _ _ g2).2.2.2.2)
    (by
      intro e he
      rw [List.zip_map'] at he
      obtain ⟨o, h, rfl⟩ := List.mem_map.mp he
      exact (C109_output hW hEnc rev _ _ _ (hO o h)).2.2.2.2.2.2.2.1)
    (by simpa using hne)
    (by
      rw [List.map_map, List.map_map]
      refine List.map_congr_left fun i h => ?_
      obtain ⟨o, g1, g2⟩ := hi i h
      obtain ⟨-, -, g3, g4⟩ := C109_received hW hEnc _ _ _ o g1
      show i.record.oar.bar.publicKey = _
      rw [(C109_input hW rev o _ _ _ g2).1, g3, g4]
      rfl)
    hbal hlim
  refine ⟨note, h1, h2, ?_⟩
  have hbody : note.body.inputs = (I.map (·.record)).map (·.oar.bar) ∧ note.body.outputs = (O.map (·.record)).map (·.oar.bar) ∧
      note.body.tracingMemos = (I.map (·.record) ++ O.map (·.record)).map (·.tracersMemos) ∧
      note.body.ownersMemos = (O.map (·.record)).map (·.ownerMemo) := by
    unfold Ext.genNote at h1
    split at h1
    · cases h1
    split at h1
    · cases h1
    obtain ⟨body, g1, h1⟩ := Option.bind_eq_some_iff.mp h1
    obtain ⟨_, -, h1⟩ := Option.bind_eq_some_iff.mp h1
    obtain ⟨_, -, h1⟩ := Option.bind_eq_some_iff.mp h1
    obtain rfl := Option.some.inj h1
    unfold Ext.genBody at g1
    obtain ⟨_, -, g1⟩ := Option.bind_eq_some_iff.mp g1
    split at g1
    · cases g1
    obtain ⟨_, -, g1⟩ := Option.bind_eq_some_iff.mp g1
    obtain ⟨_, -, g1⟩ := Option.bind_eq_some_iff.mp g1
    obtain rfl := Option.some.inj g1
    simp [List.map_map, Function.comp_def]
  obtain ⟨b1, b2, b3, b4⟩ := hbody
  refine ⟨?_, b3, fun j o hj => ?_⟩
  · rw [b1, List.map_map]
    refine List.map_congr_left fun i h => ?_
    obtain ⟨o, g1, g2⟩ := hi i h
    show i.record.oar.bar = _
    rw [(C109_input hW rev o _ _ _ g2).1, (C109_received hW hEnc _ _ _ o g1).2.2.1]
  · obtain ⟨f1, f2, -, f3, -, -, -, -, f4⟩ := C109_output hW hEnc rev _ _ _ (hO o (List.mem_of_getElem? hj))
    refine ⟨o.record.oar.bar, o.record.ownerMemo, o.record.oar, ?_, ?_, f1, f2, f3, f4⟩
    · rw [b2, List.getElem?_map, List.getElem?_map, hj]
      rfl
    · rw [b4, List.getElem?_map, List.getElem?_map, hj]
      rfl

end

end

end Verif.Xfr
