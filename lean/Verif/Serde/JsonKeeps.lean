import Verif.Serde.JsonShows
import Verif.Serde.JsonWallet

/-!
C113: programs in other languages that read or make the JSON of keys, credentials, policies and opened records go by the names of the members, as in
C112.  Each kind of document is described once, by the names and by what stands under them; the description holds of any document that the library
takes (`reading`), where members may be missing if the reader does without them and texts may have any form that is read, and of what the library
writes (`writing`), where every member is there and the texts are given exactly.
-/

namespace Verif.Serde

open Verif.Xfr (Types BlindAssetRecord OpenAssetRecord TracerMemo KeyPrims KeyLaws KeyPair PubKey SecKey EncKeys DecKeys)
open Verif.Anon (AnonExt AnonLaws AKeyPair OpenAbarAt LeafInfo MTNode AMemo)

/-- a way to look at documents: what it means that under a name stands what `P` says, and what the texts of objects, amounts, asset types
and records are, and what is known of an object (such as a proof) that consists of parts -/
structure View where
  under : Json → Bytes → (Json → Prop) → Prop
  leaf : ∀ {α : Type}, Bytewise α → α → Json → Prop
  amount : UInt64 → Json → Prop
  array : ∀ {α : Type}, (α → { b : Bytes // b.length = 32 }) → ({ b : Bytes // b.length = 32 } → α) → α → Json → Prop
  bar : ∀ {S : Types}, Leaves S → Parse S → BlindAssetRecord S → Json → Prop
  parts : ∀ {α β : Type}, (α → β) → (β → Res α) → (β → Json → Prop) → α → Json → Prop

/-- a document from anywhere -/
def reading : View where
  under j n P := ∀ v, j.member n = some v → P v
  leaf b a v := TextOf b.read a v
  amount a v := ∃ s, v = .str s ∧ parseU64 s = some a
  array _ atOf t v := ∃ b : { b : Bytes // b.length = 32 }, v = .arr (b.1.map (fun x => .num x.toNat)) ∧ t = atOf b
  bar _ R r v := BarSeen R r v
  parts _ g P a v := ∃ b, g b = .ok a ∧ P b v

/-- a document of the library -/
def writing : View where
  under j n P := ∃ v, j.member n = some v ∧ P v
  leaf b a v := v = .str (b64enc (b.write a))
  amount a v := v = .str (decimal a.toNat)
  array at32 _ t v := v = .arr ((at32 t).1.map (fun x => .num x.toNat))
  bar L _ r v := BarWritten L r v
  parts f _ P a v := P (f a) v

/-- an array with the elements of the list in their order -/
def ListIn {α : Type} (P : α → Json → Prop) (l : List α) (j : Json) : Prop := ∃ js, j = .arr js ∧ List.Forall₂ P l js

/-- `null` for nothing -/
def OptIn {α : Type} (P : α → Json → Prop) : Option α → Json → Prop
  | none, v => v = .null
  | some a, v => P a v

theorem deList_read {α : Type} {de : Json → Res α} {P : α → Json → Prop} (hP : ∀ a v, de v = .ok a → P a v) (js : List Json) :
    ∀ l, deList de js = .ok l → List.Forall₂ P l js := by
  induction js with
  | nil =>
    intro l h
    cases h
    exact .nil
  | cons j js ih =>
    intro l h
    obtain ⟨a, ha, h⟩ := Res.bind_eq_ok.mp h
    obtain ⟨b, hb, h⟩ := Res.bind_eq_ok.mp h
    cases h
    exact .cons (hP a j ha) (ih b hb)

theorem vec_read {α : Type} {c : Codec α} {P : α → Json → Prop} {l : List α} {j : Json} (h : (jVec c).de j = .ok l)
    (hP : ∀ a v, c.de v = .ok a → P a v) : ListIn P l j := by
  cases j with
  | arr js => exact ⟨js, rfl, deList_read hP js l h⟩
  | _ => cases h

theorem vec_written {α : Type} {c : Codec α} {P : α → Json → Prop} (hP : ∀ a, P a (c.ser a)) (l : List α) : ListIn P l ((jVec c).ser l) := by
  refine ⟨l.map c.ser, rfl, ?_⟩
  induction l with
  | nil => exact .nil
  | cons a l ih => exact .cons (hP a) ih

theorem option_read {α : Type} {c : Codec α} {P : α → Json → Prop} {o : Option α} {j : Json} (h : (jOption c).de j = .ok o)
    (hP : ∀ a v, c.de v = .ok a → P a v) : OptIn P o j := by
  by_cases e : j = .null
  · subst e
    cases h
    rfl
  · rw [jOption_de c e] at h
    obtain ⟨a, ha, h⟩ := Res.bind_eq_ok.mp h
    cases h
    exact hP a j ha

theorem option_written {α : Type} {c : Codec α} {P : α → Json → Prop} (hP : ∀ a, P a (c.ser a)) (o : Option α) : OptIn P o ((jOption c).ser o) := by
  cases o with
  | none => rfl
  | some a => exact hP a

theorem json_read {α : Type} {b : Bytewise α} {v : Json} {a : α} (h : b.json.de v = .ok a) : reading.leaf b a v := leaf_seen h

theorem bool_read {v : Json} {b : Bool} (h : jBool.de v = .ok b) : v = .bool b := by
  cases v with
  | bool x => cases h; rfl
  | _ => cases h

theorem array_read {α : Type} {at32 : α → { b : Bytes // b.length = 32 }} {atOf : { b : Bytes // b.length = 32 } → α} {v : Json} {t : α}
    (h : (jArray32.via at32 (fun b => .ok (atOf b))).de v = .ok t) : reading.array at32 atOf t v := by
  obtain ⟨b, hb, e⟩ := Res.bind_eq_ok.mp h
  cases e
  obtain ⟨c, hc, e⟩ := Res.bind_eq_ok.mp hb
  simp only at e
  split_ifs at e with hl
  cases e
  exact ⟨⟨c, hl⟩, bytes_seen hc, rfl⟩

/-- what the library writes is a document -/
theorem written_parsed {α : Type} {c : Codec α} {k : Nat} (h : c.Good k) (hk : k < 128) (a : α) : parseJson (toJson c a) = some (c.ser a) :=
  parseJson_text _ (lt_of_le_of_lt (h.depth a) hk)

/-! ### Keys -/

/-- the keys of an owner -/
structure KeyPairIn (V : View) {L : KeyPrims} (p : KeyPair L) (j : Json) : Prop where
  pub : V.under j (ascii! "pub_key") (V.leaf ⟨PubKey.toBytes, fun b => Res.ofOption (PubKey.fromBytes b)⟩ p.pub)
  sec : V.under j (ascii! "sec_key") (V.leaf ⟨SecKey.toBytes, fun b => Res.ofOption (SecKey.fromBytes b)⟩ p.sec)

/-- C113: key pairs of ordinary records -/
theorem C113_key_pair_read {L : KeyPrims} (t : Bytes) (j : Json) (hj : parseJson t = some j) (p : KeyPair L) (h : fromJson (jKeyPair L) t = .ok p) :
    KeyPairIn reading p j := by
  obtain ⟨⟨a, b, u⟩, hd, e⟩ := Res.bind_eq_ok.mp (parsed hj h)
  cases e
  exact ⟨fun v hv => (by
      have h3 := seen_first (by ign) hd hv
      exact leaf_seen h3), fun v hv => (by
      have h3 := seen_first (by ign) (seen_rest (by ign) hd hv) hv
      exact leaf_seen h3)⟩

theorem C113_key_pair_written {L : KeyPrims} (hL : KeyLaws L) (p : KeyPair L) :
    ∃ j, parseJson (toJson (jKeyPair L) p) = some j ∧ KeyPairIn writing p j :=
  ⟨_, written_parsed (good_keyPair hL) (by decide) p, ⟨_, rfl, rfl⟩, ⟨_, rfl, rfl⟩⟩

section
variable {F AT E K : Type} [AddCommGroup E] [AddCommGroup K] {X : AnonExt F AT E K}

/-- the keys of an owner in the pool; a scalar is read modulo the order -/
structure AKeyPairIn (V : View) (X : AnonExt F AT E K) (p : AKeyPair K) (j : Json) : Prop where
  sec : V.under j (ascii! "secret_key") (V.leaf ⟨leBytes 32, fun b => Res.ofOption (X.scalarOf b)⟩ p.sec)
  pub : V.under j (ascii! "pub_key") (V.leaf ⟨X.kCompress, fun b => Res.ofOption (X.kDecompress b)⟩ p.pub)

omit [AddCommGroup E] [AddCommGroup K] in
/-- C113: key pairs of anonymous records -/
theorem C113_anon_key_pair_read (t : Bytes) (j : Json) (hj : parseJson t = some j) (p : { p : AKeyPair K // p.sec < X.kOrder })
    (h : fromJson (jAKeyPair X) t = .ok p) : AKeyPairIn reading X p.1 j := by
  obtain ⟨⟨a, b, u⟩, hd, e⟩ := Res.bind_eq_ok.mp (parsed hj h)
  cases e
  refine ⟨fun v hv => ?_, fun v hv => (by
      have h3 := seen_first (by ign) (seen_rest (by ign) hd hv) hv
      exact leaf_seen h3)⟩
  obtain ⟨s, x, h1, h2, h3⟩ := leaf_seen (seen_first (by ign) hd hv)
  obtain ⟨n, hn, h4⟩ := Res.bind_eq_ok.mp h3
  split_ifs at h4 with hl
  cases h4
  exact ⟨s, x, h1, h2, hn⟩

theorem C113_anon_key_pair_written (hX : AnonLaws X) (p : { p : AKeyPair K // p.sec < X.kOrder }) :
    ∃ j, parseJson (toJson (jAKeyPair X) p) = some j ∧ AKeyPairIn writing X p.1 j :=
  ⟨_, written_parsed (good_aKeyPair hX) (by decide) p, ⟨_, rfl, rfl⟩, ⟨_, rfl, rfl⟩⟩

end

section
variable {F G F' H : Type} (bF : Bytewise F) (bG : Bytewise G) (bF' : Bytewise F') (bH : Bytewise H)

/-- bytes as they are -/
def asIs : Bytewise Bytes := ⟨id, .ok⟩

/-- the keys under which a tracer is written to -/
structure TracerEncIn (V : View) (k : EncKeys G H) (j : Json) : Prop where
  data : V.under j (ascii! "record_data_enc_key") (V.leaf bG k.data)
  attrs : V.under j (ascii! "attrs_enc_key") (V.leaf bH k.attrs)
  lock : V.under j (ascii! "lock_info_enc_key") (V.leaf asIs k.lock)

/-- the keys with which a tracer reads; those of the last are clamped when they are read -/
structure TracerDecIn (V : View) (k : DecKeys F F') (j : Json) : Prop where
  data : V.under j (ascii! "record_data_dec_key") (V.leaf bF k.data)
  attrs : V.under j (ascii! "attrs_dec_key") (V.leaf bF' k.attrs)
  lock : V.under j (ascii! "lock_info_dec_key") (V.leaf ⟨id, fun b => .ok (Xfr.clamp b)⟩ k.lock)

/-- both -/
structure TracerPairIn (V : View) (d : DecKeys F F') (e : EncKeys G H) (j : Json) : Prop where
  enc : V.under j (ascii! "enc_key") (TracerEncIn bG bH V e)
  dec : V.under j (ascii! "dec_key") (TracerDecIn bF bF' V d)

variable {bF bG bF' bH}

theorem tracerEnc_read {j : Json} {k : TracerEnc G H} (h : (jTracerEnc bG bH).de j = .ok k) : TracerEncIn bG bH reading k.1 j := by
  obtain ⟨⟨a, b, c, u⟩, hd, e⟩ := Res.bind_eq_ok.mp h
  cases e
  refine ⟨fun v hv => (by
      have h3 := seen_first (by ign) hd hv
      exact json_read h3), fun v hv => (by
      have h3 := seen_first (by ign) (seen_rest (by ign) hd hv) hv
      exact json_read h3),
    fun v hv => ?_⟩
  obtain ⟨s, x, h1, h2, h3⟩ := leaf_seen (seen_first (by ign) (seen_rest (by ign) (seen_rest (by ign) hd hv) hv) hv)
  simp only at h3
  split_ifs at h3 with hl
  cases h3
  exact ⟨s, x, h1, h2, rfl⟩

theorem tracerEnc_written (k : TracerEnc G H) : TracerEncIn bG bH writing k.1 ((jTracerEnc bG bH).ser k) :=
  ⟨⟨_, rfl, rfl⟩, ⟨_, rfl, rfl⟩, ⟨_, rfl, rfl⟩⟩

theorem tracerDec_read {j : Json} {k : TracerDec F F'} (h : (jTracerDec bF bF').de j = .ok k) : TracerDecIn bF bF' reading k.1 j := by
  obtain ⟨⟨a, b, c, u⟩, hd, e⟩ := Res.bind_eq_ok.mp h
  cases e
  refine ⟨fun v hv => (by
      have h3 := seen_first (by ign) hd hv
      exact json_read h3), fun v hv => (by
      have h3 := seen_first (by ign) (seen_rest (by ign) hd hv) hv
      exact json_read h3),
    fun v hv => ?_⟩
  obtain ⟨s, x, h1, h2, h3⟩ := leaf_seen (seen_first (by ign) (seen_rest (by ign) (seen_rest (by ign) hd hv) hv) hv)
  simp only at h3
  split_ifs at h3 with hl
  cases h3
  exact ⟨s, x, h1, h2, rfl⟩

/-- C113: keys of tracers -/
theorem C113_tracer_keys_read (t : Bytes) (j : Json) (hj : parseJson t = some j) (p : TracerDec F F' × TracerEnc G H)
    (h : fromJson (jTracerPair bF bG bF' bH) t = .ok p) : TracerPairIn bF bG bF' bH reading p.1.1 p.2.1 j := by
  obtain ⟨⟨a, b, u⟩, hd, e⟩ := Res.bind_eq_ok.mp (parsed hj h)
  cases e
  exact ⟨fun v hv => (by
      have h3 := seen_first (by ign) hd hv
      exact tracerEnc_read h3),
    fun v hv => (by
      have h3 := seen_first (by ign) (seen_rest (by ign) hd hv) hv
      exact tracerDec_read h3)⟩

theorem C113_tracer_keys_written (hF : bF.Good) (hG : bG.Good) (hF' : bF'.Good) (hH : bH.Good) (p : TracerDec F F' × TracerEnc G H) :
    ∃ j, parseJson (toJson (jTracerPair bF bG bF' bH) p) = some j ∧ TracerPairIn bF bG bF' bH writing p.1.1 p.2.1 j :=
  ⟨_, written_parsed (good_tracerPair hF hG hF' hH) (by decide) p, ⟨_, rfl, tracerEnc_written p.2⟩,
    ⟨_, rfl, ⟨_, rfl, rfl⟩, ⟨_, rfl, rfl⟩, ⟨_, rfl, rfl⟩⟩⟩

end

/-! ### Credentials and policies -/

section
variable {F G G1 G2 : Type} (bF : Bytewise F) (bG : Bytewise G) (b1 : Bytewise G1) (b2 : Bytewise G2)

/-- the public key of an issuer -/
structure IssuerPKIn (V : View) (k : AnonCreds.IssuerPK G1 G2) (j : Json) : Prop where
  gen2 : V.under j (ascii! "gen2") (V.leaf b2 k.gen2)
  xx2 : V.under j (ascii! "xx2") (V.leaf b2 k.xx2)
  zz1 : V.under j (ascii! "zz1") (V.leaf b1 k.zz1)
  zz2 : V.under j (ascii! "zz2") (V.leaf b2 k.zz2)
  yy2 : V.under j (ascii! "yy2") (ListIn (V.leaf b2) k.yy2)

/-- the secret key of an issuer -/
structure IssuerSKIn (V : View) (k : AnonCreds.IssuerSK F G1) (j : Json) : Prop where
  gen1 : V.under j (ascii! "gen1") (V.leaf b1 k.gen1)
  x : V.under j (ascii! "x") (V.leaf bF k.x)
  y : V.under j (ascii! "y") (ListIn (V.leaf bF) k.y)

/-- a signature on attributes, or the commitment to one -/
structure CredSigIn (V : View) (s : AnonCreds.Sig G1) (j : Json) : Prop where
  sigma1 : V.under j (ascii! "sigma1") (V.leaf b1 s.sigma1)
  sigma2 : V.under j (ascii! "sigma2") (V.leaf b1 s.sigma2)

/-- a credential -/
structure CredentialIn (V : View) (c : AnonCreds.Credential UInt32 G1 G2) (j : Json) : Prop where
  sig : V.under j (ascii! "sig") (CredSigIn b1 V c.sig)
  attrs : V.under j (ascii! "attrs") (ListIn (fun (a : UInt32) v => v = .num a.toNat) c.attrs)
  ipk : V.under j (ascii! "ipk") (IssuerPKIn b1 b2 V c.ipk)

/-- the key of a commitment -/
structure RandomizerIn (V : View) (c : AnonCreds.Randomizer F) (j : Json) : Prop where
  r : V.under j (ascii! "r") (V.leaf bF c.r)
  t : V.under j (ascii! "t") (V.leaf bF c.t)

/-- which attributes are revealed to the tracer -/
structure IdPolicyIn (V : View) (p : IdPolicy G1 G2) (j : Json) : Prop where
  issuer : V.under j (ascii! "cred_issuer_pub_key") (IssuerPKIn b1 b2 V p.issuer)
  reveal : V.under j (ascii! "reveal_map") (ListIn (fun b v => v = .bool b) p.revealMap)

/-- a policy -/
structure PolicyIn (V : View) (p : FullPolicy G G1 G2) (j : Json) : Prop where
  keys : V.under j (ascii! "enc_keys") (TracerEncIn bG b1 V p.encKeys.1)
  asset : V.under j (ascii! "asset_tracing") (fun v => v = .bool p.assetTracing)
  identity : V.under j (ascii! "identity_tracing") (OptIn (IdPolicyIn b1 b2 V) p.identityTracing)

/-- the policies by which a note is verified -/
structure NotePoliciesIn (V : View) (p : NotePolicies G G1 G2) (j : Json) : Prop where
  valid : V.under j (ascii! "valid") (fun v => v = .bool p.valid)
  inputs : V.under j (ascii! "inputs_tracing_policies") (ListIn (ListIn (PolicyIn bG b1 b2 V)) p.inputs)
  inputsComs : V.under j (ascii! "inputs_sig_commitments") (ListIn (OptIn (CredSigIn b1 V)) p.inputsComs)
  outputs : V.under j (ascii! "outputs_tracing_policies") (ListIn (ListIn (PolicyIn bG b1 b2 V)) p.outputs)
  outputsComs : V.under j (ascii! "outputs_sig_commitments") (ListIn (OptIn (CredSigIn b1 V)) p.outputsComs)

variable {bF bG b1 b2}

theorem issuerPK_read {j : Json} {k : AnonCreds.IssuerPK G1 G2} (h : (jIssuerPK b1 b2).de j = .ok k) : IssuerPKIn b1 b2 reading k j := by
  obtain ⟨⟨a, b, c, d, f, u⟩, hd, e⟩ := Res.bind_eq_ok.mp h
  cases e
  exact ⟨fun v hv => (by
      have h3 := seen_first (by ign) hd hv
      exact json_read h3),
    fun v hv => (by
      have h3 := seen_first (by ign) (seen_rest (by ign) hd hv) hv
      exact json_read h3),
    fun v hv => (by
      have h3 := seen_first (by ign) (seen_rest (by ign) (seen_rest (by ign) hd hv) hv) hv
      exact json_read h3),
    fun v hv => (by
      have h3 := seen_first (by ign) (seen_rest (by ign) (seen_rest (by ign) (seen_rest (by ign) hd hv) hv) hv) hv
      exact json_read h3),
    fun v hv => (by
      have h3 := seen_first (by ign) (seen_rest (by ign) (seen_rest (by ign) (seen_rest (by ign) (seen_rest (by ign) hd hv) hv) hv) hv) hv
      exact vec_read h3 (fun _ _ => json_read))⟩

theorem issuerPK_written (k : AnonCreds.IssuerPK G1 G2) : IssuerPKIn b1 b2 writing k ((jIssuerPK b1 b2).ser k) :=
  ⟨⟨_, rfl, rfl⟩, ⟨_, rfl, rfl⟩, ⟨_, rfl, rfl⟩, ⟨_, rfl, rfl⟩, ⟨_, rfl, vec_written (c := b2.json) (P := writing.leaf b2) (fun _ => rfl) _⟩⟩

theorem credSig_read {j : Json} {s : AnonCreds.Sig G1} (h : (jCredSig b1).de j = .ok s) : CredSigIn b1 reading s j := by
  obtain ⟨⟨a, b, u⟩, hd, e⟩ := Res.bind_eq_ok.mp h
  cases e
  exact ⟨fun v hv => (by
      have h3 := seen_first (by ign) hd hv
      exact json_read h3), fun v hv => (by
      have h3 := seen_first (by ign) (seen_rest (by ign) hd hv) hv
      exact json_read h3)⟩

theorem credSig_written (s : AnonCreds.Sig G1) : CredSigIn b1 writing s ((jCredSig b1).ser s) := ⟨⟨_, rfl, rfl⟩, ⟨_, rfl, rfl⟩⟩

/-- C113: secret keys of issuers -/
theorem C113_issuer_secret_read (t : Bytes) (j : Json) (hj : parseJson t = some j) (k : AnonCreds.IssuerSK F G1)
    (h : fromJson (jIssuerSK bF b1) t = .ok k) : IssuerSKIn bF b1 reading k j := by
  obtain ⟨⟨a, b, c, u⟩, hd, e⟩ := Res.bind_eq_ok.mp (parsed hj h)
  cases e
  exact ⟨fun v hv => (by
      have h3 := seen_first (by ign) hd hv
      exact json_read h3), fun v hv => (by
      have h3 := seen_first (by ign) (seen_rest (by ign) hd hv) hv
      exact json_read h3),
    fun v hv => (by
      have h3 := seen_first (by ign) (seen_rest (by ign) (seen_rest (by ign) hd hv) hv) hv
      exact vec_read h3 (fun _ _ => json_read))⟩

theorem C113_issuer_secret_written (hF : bF.Good) (h1 : b1.Good) (k : AnonCreds.IssuerSK F G1) :
    ∃ j, parseJson (toJson (jIssuerSK bF b1) k) = some j ∧ IssuerSKIn bF b1 writing k j :=
  ⟨_, written_parsed (good_issuerSK hF h1) (by decide) k, ⟨_, rfl, rfl⟩, ⟨_, rfl, rfl⟩, ⟨_, rfl, vec_written (c := bF.json) (P := writing.leaf bF) (fun _ => rfl) _⟩⟩

/-- C113: credentials, with the public keys of their issuers -/
theorem C113_credential_read (t : Bytes) (j : Json) (hj : parseJson t = some j) (c : AnonCreds.Credential UInt32 G1 G2)
    (h : fromJson (jCredential b1 b2) t = .ok c) : CredentialIn b1 b2 reading c j := by
  obtain ⟨⟨a, b, d, u⟩, hd, e⟩ := Res.bind_eq_ok.mp (parsed hj h)
  cases e
  exact ⟨fun v hv => (by
      have h3 := seen_first (by ign) hd hv
      exact credSig_read h3),
    fun v hv => (by
      have h3 := seen_first (by ign) (seen_rest (by ign) hd hv) hv
      exact vec_read h3 (fun _ _ => u32_seen)),
    fun v hv => (by
      have h3 := seen_first (by ign) (seen_rest (by ign) (seen_rest (by ign) hd hv) hv) hv
      exact issuerPK_read h3)⟩

theorem C113_credential_written (h1 : b1.Good) (h2 : b2.Good) (c : AnonCreds.Credential UInt32 G1 G2) :
    ∃ j, parseJson (toJson (jCredential b1 b2) c) = some j ∧ CredentialIn b1 b2 writing c j :=
  ⟨_, written_parsed (good_credential h1 h2) (by decide) c, ⟨_, rfl, credSig_written c.sig⟩, ⟨_, rfl, vec_written (c := jU32) (P := fun (a : UInt32) v => v = .num a.toNat) (fun _ => rfl) _⟩,
    ⟨_, rfl, issuerPK_written c.ipk⟩⟩

/-- C113: keys of commitments to credentials -/
theorem C113_commitment_key_read (t : Bytes) (j : Json) (hj : parseJson t = some j) (r : AnonCreds.Randomizer F)
    (h : fromJson (jRandomizer bF) t = .ok r) : RandomizerIn bF reading r j := by
  obtain ⟨⟨a, b, u⟩, hd, e⟩ := Res.bind_eq_ok.mp (parsed hj h)
  cases e
  exact ⟨fun v hv => (by
      have h3 := seen_first (by ign) hd hv
      exact json_read h3), fun v hv => (by
      have h3 := seen_first (by ign) (seen_rest (by ign) hd hv) hv
      exact json_read h3)⟩

theorem C113_commitment_key_written (hF : bF.Good) (r : AnonCreds.Randomizer F) :
    ∃ j, parseJson (toJson (jRandomizer bF) r) = some j ∧ RandomizerIn bF writing r j :=
  ⟨_, written_parsed (good_randomizer hF) (by decide) r, ⟨_, rfl, rfl⟩, ⟨_, rfl, rfl⟩⟩

theorem idPolicy_read {j : Json} {p : IdPolicy G1 G2} (h : (jIdPolicy b1 b2).de j = .ok p) : IdPolicyIn b1 b2 reading p j := by
  obtain ⟨⟨a, b, u⟩, hd, e⟩ := Res.bind_eq_ok.mp h
  cases e
  exact ⟨fun v hv => (by
      have h3 := seen_first (by ign) hd hv
      exact issuerPK_read h3),
    fun v hv => (by
      have h3 := seen_first (by ign) (seen_rest (by ign) hd hv) hv
      exact vec_read h3 (fun _ _ => bool_read))⟩

theorem policy_read {j : Json} {p : FullPolicy G G1 G2} (h : (jPolicy bG b1 b2).de j = .ok p) : PolicyIn bG b1 b2 reading p j := by
  obtain ⟨⟨a, b, c, u⟩, hd, e⟩ := Res.bind_eq_ok.mp h
  cases e
  exact ⟨fun v hv => (by
      have h3 := seen_first (by ign) hd hv
      exact tracerEnc_read h3),
    fun v hv => (by
      have h3 := seen_first (by ign) (seen_rest (by ign) hd hv) hv
      exact bool_read h3),
    fun v hv => (by
      have h3 := seen_first (by ign) (seen_rest (by ign) (seen_rest (by ign) hd hv) hv) hv
      exact option_read h3 (fun _ _ => idPolicy_read))⟩

theorem idPolicy_written (p : IdPolicy G1 G2) : IdPolicyIn b1 b2 writing p ((jIdPolicy b1 b2).ser p) :=
  ⟨⟨_, rfl, issuerPK_written p.issuer⟩, ⟨_, rfl, vec_written (c := jBool) (P := fun b v => v = .bool b) (fun _ => rfl) _⟩⟩

theorem policy_written (p : FullPolicy G G1 G2) : PolicyIn bG b1 b2 writing p ((jPolicy bG b1 b2).ser p) :=
  ⟨⟨_, rfl, tracerEnc_written p.encKeys⟩, ⟨_, rfl, rfl⟩, ⟨_, rfl, option_written (c := jIdPolicy b1 b2) idPolicy_written _⟩⟩

/-- C113: policies -/
theorem C113_policies_read (t : Bytes) (j : Json) (hj : parseJson t = some j) (p : NotePolicies G G1 G2)
    (h : fromJson (jNotePolicies bG b1 b2) t = .ok p) : NotePoliciesIn bG b1 b2 reading p j := by
  obtain ⟨⟨a, b, c, d, f, u⟩, hd, e⟩ := Res.bind_eq_ok.mp (parsed hj h)
  cases e
  exact ⟨fun v hv => (by
      have h3 := seen_first (by ign) hd hv
      exact bool_read h3),
    fun v hv => (by
      have h3 := seen_first (by ign) (seen_rest (by ign) hd hv) hv
      exact vec_read h3 (fun _ _ h => vec_read h (fun _ _ => policy_read))),
    fun v hv => (by
      have h3 := seen_first (by ign) (seen_rest (by ign) (seen_rest (by ign) hd hv) hv) hv
      exact vec_read h3 (fun _ _ h => option_read h (fun _ _ => credSig_read))),
    fun v hv => (by
      have h3 := seen_first (by ign) (seen_rest (by ign) (seen_rest (by ign) (seen_rest (by ign) hd hv) hv) hv) hv
      exact vec_read h3 (fun _ _ h => vec_read h (fun _ _ => policy_read))),
    fun v hv => (by
      have h3 := seen_first (by ign) (seen_rest (by ign) (seen_rest (by ign) (seen_rest (by ign) (seen_rest (by ign) hd hv) hv) hv) hv) hv
      exact vec_read h3 (fun _ _ h => option_read h (fun _ _ => credSig_read)))⟩

theorem C113_policies_written (hG : bG.Good) (h1 : b1.Good) (h2 : b2.Good) (p : NotePolicies G G1 G2) :
    ∃ j, parseJson (toJson (jNotePolicies bG b1 b2) p) = some j ∧ NotePoliciesIn bG b1 b2 writing p j :=
  ⟨_, written_parsed (good_notePolicies hG h1 h2) (by decide) p, ⟨_, rfl, rfl⟩,
    ⟨_, rfl, vec_written (c := jPolicies bG b1 b2) (vec_written (c := jPolicy bG b1 b2) policy_written) _⟩,
    ⟨_, rfl, vec_written (c := jOption (jCredSig b1)) (option_written credSig_written) _⟩,
    ⟨_, rfl, vec_written (c := jPolicies bG b1 b2) (vec_written (c := jPolicy bG b1 b2) policy_written) _⟩,
    ⟨_, rfl, vec_written (c := jOption (jCredSig b1)) (option_written credSig_written) _⟩⟩

end

/-! ### Opened records -/

section
variable {S : Types} (L : Leaves S) (R : Parse S) (bF : Bytewise S.F) {G G1 G2 : Type} (bG : Bytewise G) (b1 : Bytewise G1) (b2 : Bytewise G2)

/-- an opened record -/
structure OpenRecordIn (V : View) (o : OpenAssetRecord S) (j : Json) : Prop where
  record : V.under j (ascii! "blind_asset_record") (V.bar L R o.bar)
  amount : V.under j (ascii! "amount") (V.amount o.amount)
  blinds : V.under j (ascii! "amount_blinds") (fun v => ∃ x y, v = .arr [x, y] ∧ V.leaf bF o.amountBlinds.1 x ∧ V.leaf bF o.amountBlinds.2 y)
  type : V.under j (ascii! "asset_type") (V.array L.at' R.at' o.assetType)
  typeBlind : V.under j (ascii! "type_blind") (V.leaf bF o.typeBlind)

/-- an opened record with its policies -/
structure RecordIn (V : View) (o : FullRecord S G G1 G2) (j : Json) : Prop where
  record : V.under j (ascii! "open_asset_record") (OpenRecordIn L R bF V o.oar)
  policies : V.under j (ascii! "tracing_policies") (ListIn (PolicyIn bG b1 b2 V) o.policies)

/-- the template of an output -/
structure TemplateIn (V : View) (o : Template S G G1 G2) (j : Json) : Prop where
  amount : V.under j (ascii! "amount") (V.amount o.amount)
  type : V.under j (ascii! "asset_type") (V.array L.at' R.at' o.assetType)
  owner : V.under j (ascii! "public_key") (V.leaf ⟨L.pk, R.pk⟩ o.publicKey)
  policies : V.under j (ascii! "asset_tracing_policies") (ListIn (PolicyIn bG b1 b2 V) o.policies)
  /-- the flags: whether the amount is hidden, and whether the type is -/
  kind : V.under j (ascii! "asset_record_type") (fun v => ∀ s, v = .str s →
    s = (if o.recordType.1 then ascii! "ConfidentialAmount_" else ascii! "NonConfidentialAmount_") ++
      (if o.recordType.2 then ascii! "ConfidentialAssetType" else ascii! "NonConfidentialAssetType"))

variable {L R bF bG b1 b2} {lay : WMemo → Layout} {sg : S.Sg → Bytes}

theorem decimal_read {v : Json} {a : UInt64} (h : jDecimal.de v = .ok a) : reading.amount a v := decimal_seen h

theorem openRecord_read {j : Json} {o : OpenAssetRecord S} (h : (jOpenRecord L R bF).de j = .ok o) : OpenRecordIn L R bF reading o j := by
  obtain ⟨⟨a, b, c, d, f, u⟩, hd, e⟩ := Res.bind_eq_ok.mp h
  cases e
  refine ⟨fun v hv => (by
      have h3 := seen_first (by ign) hd hv
      exact bar_seen h3), fun v hv => (by
      have h3 := seen_first (by ign) (seen_rest (by ign) hd hv) hv
      exact decimal_read h3),
    fun v hv => ?_,
    fun v hv => (by
      have h3 := seen_first (by ign) (seen_rest (by ign) (seen_rest (by ign) (seen_rest (by ign) hd hv) hv) hv) hv
      exact array_read h3),
    fun v hv => (by
      have h3 := seen_first (by ign) (seen_rest (by ign) (seen_rest (by ign) (seen_rest (by ign) (seen_rest (by ign) hd hv) hv) hv) hv) hv
      exact json_read h3)⟩
  obtain ⟨x, y, h1, h2, h3⟩ := pair_seen (seen_first (by ign) (seen_rest (by ign) (seen_rest (by ign) hd hv) hv) hv)
  exact ⟨x, y, h1, json_read h2, json_read h3⟩

theorem openRecord_written (o : OpenAssetRecord S) : OpenRecordIn L R bF writing o ((jOpenRecord L R bF).ser o) :=
  ⟨⟨_, rfl, bar_written o.bar⟩, ⟨_, rfl, rfl⟩, ⟨_, rfl, _, _, rfl, rfl, rfl⟩, ⟨_, rfl, rfl⟩, ⟨_, rfl, rfl⟩⟩

/-- C113: opened records -/
theorem C113_open_record_read (t : Bytes) (j : Json) (hj : parseJson t = some j) (o : OpenAssetRecord S)
    (h : fromJson (jOpenRecord L R bF) t = .ok o) : OpenRecordIn L R bF reading o j := openRecord_read (parsed hj h)

theorem C113_open_record_written (hR : R.Of L sg) (hF : bF.Good) (o : OpenAssetRecord S) :
    ∃ j, parseJson (toJson (jOpenRecord L R bF) o) = some j ∧ OpenRecordIn L R bF writing o j :=
  ⟨_, written_parsed (good_openRecord hR hF) (by decide) o, openRecord_written o⟩

/-- C113: opened records with their policies -/
theorem C113_asset_record_read (t : Bytes) (j : Json) (hj : parseJson t = some j) (o : FullRecord S G G1 G2)
    (h : fromJson (jFullRecord L R lay bF bG b1 b2) t = .ok o) : RecordIn L R bF bG b1 b2 reading o j := by
  obtain ⟨⟨a, b, c, d, f, u⟩, hd, e⟩ := Res.bind_eq_ok.mp (parsed hj h)
  cases e
  exact ⟨fun v hv => (by
      have h3 := seen_first (by ign) hd hv
      exact openRecord_read h3),
    fun v hv => (by
      have h3 := seen_first (by ign) (seen_rest (by ign) hd hv) hv
      exact vec_read h3 (fun _ _ => policy_read))⟩

theorem C113_asset_record_written (hR : R.Of L sg) (hl : ∀ m, (lay m).Fits m) (hF : bF.Good) (hG : bG.Good) (h1 : b1.Good) (h2 : b2.Good)
    (o : FullRecord S G G1 G2) :
    ∃ j, parseJson (toJson (jFullRecord L R lay bF bG b1 b2) o) = some j ∧ RecordIn L R bF bG b1 b2 writing o j :=
  ⟨_, written_parsed (good_fullRecord hR hl hF hG h1 h2) (by decide) o, ⟨_, rfl, openRecord_written o.oar⟩,
    ⟨_, rfl, vec_written (c := jPolicy bG b1 b2) policy_written _⟩⟩

theorem recordTypeName_parts (a b : Bool) : recordTypeName (a, b) =
    (if a then ascii! "ConfidentialAmount_" else ascii! "NonConfidentialAmount_") ++
      (if b then ascii! "ConfidentialAssetType" else ascii! "NonConfidentialAssetType") := by
  cases a <;> cases b <;> rfl

theorem recordTypeOf_name (s : Bytes) (x : Bool × Bool) (h : recordTypeOf s = .ok x) : s = recordTypeName x := by
  unfold recordTypeOf at h
  split_ifs at h with h1 h2 h3 h4 <;> cases h <;> assumption

/-- C113: templates of outputs -/
theorem C113_template_read (t : Bytes) (j : Json) (hj : parseJson t = some j) (o : Template S G G1 G2)
    (h : fromJson (jTemplate L R bG b1 b2) t = .ok o) : TemplateIn L R bG b1 b2 reading o j := by
  obtain ⟨⟨a, b, c, d, f, u⟩, hd, e⟩ := Res.bind_eq_ok.mp (parsed hj h)
  cases e
  refine ⟨fun v hv => (by
      have h3 := seen_first (by ign) hd hv
      exact decimal_read h3), fun v hv => (by
      have h3 := seen_first (by ign) (seen_rest (by ign) hd hv) hv
      exact array_read h3),
    fun v hv => (by
      have h3 := seen_first (by ign) (seen_rest (by ign) (seen_rest (by ign) hd hv) hv) hv
      exact leaf_seen h3),
    fun v hv => (by
      have h3 := seen_first (by ign) (seen_rest (by ign) (seen_rest (by ign) (seen_rest (by ign) (seen_rest (by ign) hd hv) hv) hv) hv) hv
      exact vec_read h3 (fun _ _ => policy_read)), fun v hv s hs => ?_⟩
  subst hs
  have h3 := seen_first (by ign) (seen_rest (by ign) (seen_rest (by ign) (seen_rest (by ign) hd hv) hv) hv) hv
  exact (recordTypeOf_name s d h3).trans (recordTypeName_parts d.1 d.2)

theorem C113_template_written (hR : R.Of L sg) (hG : bG.Good) (h1 : b1.Good) (h2 : b2.Good) (o : Template S G G1 G2) :
    ∃ j, parseJson (toJson (jTemplate L R bG b1 b2) o) = some j ∧ TemplateIn L R bG b1 b2 writing o j ∧
      ∃ s, j.member (ascii! "asset_record_type") = some (.str s) :=
  ⟨_, written_parsed (good_template hR hG h1 h2) (by decide) o, ⟨⟨_, rfl, rfl⟩, ⟨_, rfl, rfl⟩, ⟨_, rfl, rfl⟩,
    ⟨_, rfl, vec_written (c := jPolicy bG b1 b2) policy_written _⟩,
    ⟨_, rfl, fun s hs => (Json.str.inj hs).symm.trans (recordTypeName_parts o.recordType.1 o.recordType.2)⟩⟩, ⟨_, rfl⟩⟩

end

/-! ### Anonymous records -/

section
variable {F AT K : Type} (bF : Bytewise F) (bA : Bytewise K) (at32 : AT → { b : Bytes // b.length = 32 }) (atOf : { b : Bytes // b.length = 32 } → AT)

/-- a node of a path -/
structure NodeIn (V : View) (n : MTNode F) (j : Json) : Prop where
  first : V.under j (ascii! "siblings1") (V.leaf bF n.siblings1)
  second : V.under j (ascii! "siblings2") (V.leaf bF n.siblings2)
  left : V.under j (ascii! "is_left_child") (fun v => v = .num n.isLeftChild)
  right : V.under j (ascii! "is_right_child") (fun v => v = .num n.isRightChild)

/-- a place in the tree -/
structure PlaceIn (V : View) (l : LeafInfo F) (j : Json) : Prop where
  path : V.under j (ascii! "path") (fun p => V.under p (ascii! "nodes") (ListIn (NodeIn bF V) l.path))
  root : V.under j (ascii! "root") (V.leaf bF l.root)
  version : V.under j (ascii! "root_version") (fun v => v = .num l.version.toNat)
  uid : V.under j (ascii! "uid") (fun v => v = .num l.uid.toNat)

/-- the memo of an owner in the pool -/
structure AMemoIn (V : View) (m : AMemo K) (j : Json) : Prop where
  point : V.under j (ascii! "point") (V.leaf bA m.point)
  text : V.under j (ascii! "ctext") (fun v => v = .arr (m.ctext.map (fun x => .num x.toNat)))

/-- an opened anonymous record -/
structure CoinIn (V : View) (o : OpenAbarAt F AT K) (j : Json) : Prop where
  amount : V.under j (ascii! "amount") (fun v => v = .num o.amount.toNat)
  type : V.under j (ascii! "asset_type") (V.array at32 atOf o.ty)
  blind : V.under j (ascii! "blind") (V.leaf bF o.blind)
  owner : V.under j (ascii! "pub_key") (V.leaf bA o.pub)
  memo : V.under j (ascii! "owner_memo") (OptIn (AMemoIn bA V) o.memo)
  place : V.under j (ascii! "mt_leaf_info") (OptIn (PlaceIn bF V) o.leaf)

variable {bF bA at32 atOf}

theorem node_read {j : Json} {n : Node F} (h : (jNode bF).de j = .ok n) : NodeIn bF reading n.1 j := by
  obtain ⟨⟨a, b, c, d, u⟩, hd, e⟩ := Res.bind_eq_ok.mp h
  cases e
  refine ⟨fun v hv => (by
      have h3 := seen_first (by ign) hd hv
      exact json_read h3), fun v hv => (by
      have h3 := seen_first (by ign) (seen_rest (by ign) hd hv) hv
      exact json_read h3),
    fun v hv => ?_, fun v hv => ?_⟩
  · have h3 := seen_first (by ign) (seen_rest (by ign) (seen_rest (by ign) hd hv) hv) hv
    exact nat_seen h3
  · have h3 := seen_first (by ign) (seen_rest (by ign) (seen_rest (by ign) (seen_rest (by ign) hd hv) hv) hv) hv
    exact nat_seen h3

theorem node_written (n : Node F) : NodeIn bF writing n.1 ((jNode bF).ser n) := ⟨⟨_, rfl, rfl⟩, ⟨_, rfl, rfl⟩, ⟨_, rfl, rfl⟩, ⟨_, rfl, rfl⟩⟩

theorem listIn_map {α β : Type} {P : β → Json → Prop} {f : α → β} {l : List α} {j : Json} (h : ListIn (fun a => P (f a)) l j) :
    ListIn P (l.map f) j := by
  obtain ⟨js, h1, h2⟩ := h
  exact ⟨js, h1, List.forall₂_map_left_iff.mpr h2⟩

theorem place_read {j : Json} {l : Leaf F} (h : (jLeafInfo bF).de j = .ok l) : PlaceIn bF reading l.1 j := by
  obtain ⟨⟨a, b, c, d, u⟩, hd, e⟩ := Res.bind_eq_ok.mp h
  cases e
  refine ⟨fun v hv w hw => ?_, fun v hv => (by
      have h3 := seen_first (by ign) (seen_rest (by ign) hd hv) hv
      exact json_read h3), fun v hv => ?_, fun v hv => ?_⟩
  · obtain ⟨⟨ns, u⟩, hn, e⟩ := Res.bind_eq_ok.mp (seen_first (by ign) hd hv)
    cases e
    exact listIn_map (vec_read (seen_first (by ign) hn hw) (fun _ _ => node_read))
  · have h3 := seen_first (by ign) (seen_rest (by ign) (seen_rest (by ign) hd hv) hv) hv
    exact u64_seen h3
  · have h3 := seen_first (by ign) (seen_rest (by ign) (seen_rest (by ign) (seen_rest (by ign) hd hv) hv) hv) hv
    exact u64_seen h3

theorem place_written (l : Leaf F) : PlaceIn bF writing l.1 ((jLeafInfo bF).ser l) := by
  refine ⟨⟨_, rfl, _, rfl, ?_⟩, ⟨_, rfl, rfl⟩, ⟨_, rfl, rfl⟩, ⟨_, rfl, rfl⟩⟩
  have h := listIn_map (f := Subtype.val) (vec_written (c := jNode bF) node_written (l.1.path.attach.map (fun n => ⟨n.1, l.2 n.1 n.2⟩)))
  simpa using h

theorem aMemo_read {j : Json} {m : AMemo K} (h : (jAMemo bA.write bA.read).de j = .ok m) : AMemoIn bA reading m j :=
  ⟨(aMemo_seen h).1, (aMemo_seen h).2⟩

theorem aMemo_written (m : AMemo K) : AMemoIn bA writing m ((jAMemo bA.write bA.read).ser m) := ⟨⟨_, rfl, rfl⟩, ⟨_, rfl, rfl⟩⟩

/-- C113: opened anonymous records -/
theorem C113_anon_record_read (t : Bytes) (j : Json) (hj : parseJson t = some j) (o : Coin F AT K)
    (h : fromJson (jCoin bF bA at32 atOf) t = .ok o) : CoinIn bF bA at32 atOf reading o.1 j := by
  obtain ⟨⟨a, b, c, d, f, g, u⟩, hd, e⟩ := Res.bind_eq_ok.mp (parsed hj h)
  cases e
  refine ⟨fun v hv => ?_, fun v hv => (by
      have h3 := seen_first (by ign) (seen_rest (by ign) hd hv) hv
      exact array_read h3),
    fun v hv => (by
      have h3 := seen_first (by ign) (seen_rest (by ign) (seen_rest (by ign) hd hv) hv) hv
      exact json_read h3),
    fun v hv => (by
      have h3 := seen_first (by ign) (seen_rest (by ign) (seen_rest (by ign) (seen_rest (by ign) hd hv) hv) hv) hv
      exact json_read h3),
    fun v hv => (by
      have h3 := seen_first (by ign) (seen_rest (by ign) (seen_rest (by ign) (seen_rest (by ign) (seen_rest (by ign) hd hv) hv) hv) hv) hv
      exact option_read h3 (fun _ _ => aMemo_read)), fun v hv => ?_⟩
  · have h3 := seen_first (by ign) hd hv
    exact u64_seen h3
  · have h3 := option_read (seen_first (by ign) (seen_rest (by ign) (seen_rest (by ign) (seen_rest (by ign) (seen_rest (by ign)
      (seen_rest (by ign) hd hv) hv) hv) hv) hv) hv) (fun _ _ => place_read)
    cases g with
    | none => exact h3
    | some x => exact h3

theorem C113_anon_record_written (hF : bF.Good) (hA : bA.Good) (hat : ∀ t, atOf (at32 t) = t) (o : Coin F AT K) :
    ∃ j, parseJson (toJson (jCoin bF bA at32 atOf) o) = some j ∧ CoinIn bF bA at32 atOf writing o.1 j := by
  refine ⟨_, written_parsed (good_coin hF hA hat) (by decide) o, ⟨_, rfl, rfl⟩, ⟨_, rfl, rfl⟩, ⟨_, rfl, rfl⟩, ⟨_, rfl, rfl⟩,
    ⟨_, rfl, option_written (c := jAMemo bA.write bA.read) aMemo_written _⟩, ⟨_, rfl, ?_⟩⟩
  obtain ⟨⟨⟨a, b, c, d, e⟩, l⟩, h⟩ := o
  cases l with
  | none => rfl
  | some l => exact place_written ⟨l, h l rfl⟩

end

end Verif.Serde
