import Verif.Anon.XfrNote
import Verif.Crypto.AnonCreds
import Verif.Serde.JsonNotes
import Verif.Xfr.TracerMemo

/-!
C107: what wallets, tracers and issuers keep, in JSON: key pairs, opened records, records with their policies, credentials.  The readers and
writers are those that `serde_derive` makes; see `Serde/Json.lean`.
-/

namespace Verif.Serde

open Verif.Xfr (Types BlindAssetRecord OpenAssetRecord TracerMemo KeyPrims KeyLaws KeyPair PubKey SecKey MemoPrims EncKeys DecKeys TraceExt clamp Addr)
open Verif.Anon (AnonExt AnonLaws AKeyPair OpenAbar OpenAbarAt LeafInfo MTNode AMemo)

/-! ### Key pairs of ordinary records -/

/-- `bool` -/
def jBool : Codec Bool where
  ser b := .bool b
  de j := match j with
    | .bool b => .ok b
    | _ => .err
  missing := .err

theorem good_bool : jBool.Good 0 where
  back _ := rfl
  depth _ := by simp [jBool, Json.depth]
  perm j j' a hj h := by
    cases j with
    | bool b => cases hj; exact h
    | _ => cases h

/-- `XfrPublicKey`, api/src/serialization.rs:24-33 -/
def jPubKey (L : KeyPrims) : Codec (PubKey L) := jLeaf PubKey.toBytes (fun b => Res.ofOption (PubKey.fromBytes b))

/-- `XfrSecretKey`, serialization.rs:36-45 -/
def jSecKey (L : KeyPrims) : Codec (SecKey L) := jLeaf SecKey.toBytes (fun b => Res.ofOption (SecKey.fromBytes b))

/-- `XfrKeyPair`, api/src/xfr/sig.rs:113-121 -/
def jKeyPair (L : KeyPrims) : Codec (KeyPair L) :=
  (Rec.cons (ascii! "pub_key") (jPubKey L) <| Rec.cons (ascii! "sec_key") (jSecKey L) Rec.nil).codec.via
    (fun p => (p.pub, p.sec, ())) (fun (a, b, _) => .ok ⟨a, b⟩)

theorem good_pubKey {L : KeyPrims} (h : KeyLaws L) : (jPubKey L).Good 0 :=
  good_leaf (fun k => by rw [Xfr.C23_public_key_round_trip h]; rfl)

theorem good_secKey {L : KeyPrims} (h : KeyLaws L) : (jSecKey L).Good 0 :=
  good_leaf (fun k => by rw [Xfr.C23_secret_key_round_trip h]; rfl)

theorem good_keyPair {L : KeyPrims} (h : KeyLaws L) : (jKeyPair L).Good 1 :=
  good_via (good_rec (rc (good_pubKey h) <| rc (good_secKey h) rec_good_nil)) (fun _ => rfl)

/-- C107: A key pair is read back from any JSON text of it: any spaces, the two keys in any order. -/
theorem C107_key_pair {L : KeyPrims} (h : KeyLaws L) (p : KeyPair L) {j : Json} (hj : Reord ((jKeyPair L).ser p) j) {t : Bytes}
    (ht : Writes j t) (w v : Bytes) (hw : Spaces w) (hv : Spaces v) : fromJson (jKeyPair L) (w ++ (t ++ v)) = .ok p :=
  fromJson_writes (good_keyPair h) (by decide) p hj ht w v hw hv

/-- C107: The two keys of a document need not belong together: a secret key next to any public key is read. -/
theorem C107_key_pair_violated {E K : Type} (P : MemoPrims E K) (h : KeyLaws P.toKeyPrims) (addr : P.ScPK → Addr) (s : SecKey P.toKeyPrims)
    (k : PubKey P.toKeyPrims) (hk : k ≠ P.pubOf addr s) :
    ∃ p, fromJson (jKeyPair P.toKeyPrims) ((Json.obj [(ascii! "pub_key", .str (b64enc k.toBytes)),
      (ascii! "sec_key", .str (b64enc s.toBytes))]).text) = .ok p ∧ p.pub ≠ P.pubOf addr p.sec :=
  ⟨⟨k, s⟩, fromJson_toJson (good_keyPair h) (by decide) ⟨k, s⟩, hk⟩

/-! ### Key pairs of anonymous records -/

section
variable {F AT E K : Type} [AddCommGroup E] [AddCommGroup K] (X : AnonExt F AT E K)

/-- `AXfrSecretKey`, api/src/anon_xfr/keys.rs:13-14, a newtype of a scalar of secp256k1.  `scalarOf` reduces, so that its result is below
the order. -/
def jASecret : Codec { s : Nat // s < X.kOrder } :=
  jLeaf (fun s => leBytes 32 s.1) (fun b => do
    let s ← Res.ofOption (X.scalarOf b)
    if h : s < X.kOrder then .ok ⟨s, h⟩ else .err)

/-- `AXfrPubKey`, keys.rs:17-20, a newtype of a point of secp256k1: the derived reader is that of the point
(algebra/src/serialization.rs:72-99) -/
def jAPub : Codec K := jLeaf X.kCompress (fun b => Res.ofOption (X.kDecompress b))

/-- `AXfrKeyPair`, keys.rs:41-49 -/
def jAKeyPair : Codec { p : AKeyPair K // p.sec < X.kOrder } :=
  (Rec.cons (ascii! "secret_key") (jASecret X) <| Rec.cons (ascii! "pub_key") (jAPub X) Rec.nil).codec.via
    (fun p => (⟨p.1.sec, p.2⟩, p.1.pub, ())) (fun (a, b, _) => .ok ⟨⟨a.1, b⟩, a.2⟩)

variable {X} (hX : AnonLaws X)
include hX

theorem good_aSecret : (jASecret X).Good 0 :=
  good_leaf (fun s => by
    have h : X.scalarOf (leBytes 32 s.1) = some s.1 := by
      unfold AnonExt.scalarOf
      rw [if_neg (by simp), ofLE_leBytes_of_lt (lt_of_lt_of_le s.2 (le_trans hX.order_le (by norm_num))), Nat.mod_eq_of_lt s.2]
    rw [h, Res.ofOption_some, Res.bind_ok, dif_pos s.2])

theorem good_aPub : (jAPub X).Good 0 := good_leaf (fun k => by rw [hX.memo.k_rt]; rfl)

theorem good_aKeyPair : (jAKeyPair X).Good 1 :=
  good_via (good_rec (rc (good_aSecret hX) <| rc (good_aPub hX) rec_good_nil)) (fun _ => rfl)

/-- C107: the key pair of an anonymous wallet, made from its secret key, is read back from any JSON text of it -/
theorem C107_anon_key_pair (s : Nat) (hs : s < X.kOrder) {j : Json} (hj : Reord ((jAKeyPair X).ser ⟨X.fromSecret s, hs⟩) j) {t : Bytes}
    (ht : Writes j t) (w v : Bytes) (hw : Spaces w) (hv : Spaces v) :
    fromJson (jAKeyPair X) (w ++ (t ++ v)) = .ok ⟨X.fromSecret s, hs⟩ :=
  fromJson_writes (good_aKeyPair hX) (by decide) _ hj ht w v hw hv

/-- C107: and a document can put a secret key next to any public key -/
theorem C107_anon_key_pair_violated (s : Nat) (hs : s < X.kOrder) (k : K) (hk : k ≠ (X.fromSecret s).pub) :
    ∃ p, fromJson (jAKeyPair X) ((Json.obj [(ascii! "secret_key", .str (b64enc (leBytes 32 s))),
      (ascii! "pub_key", .str (b64enc (X.kCompress k)))]).text) = .ok p ∧ p.1 ≠ X.fromSecret p.1.sec := by
  refine ⟨⟨⟨s, k⟩, hs⟩, fromJson_toJson (good_aKeyPair hX) (by decide) ⟨⟨s, k⟩, hs⟩, fun e => hk ?_⟩
  exact congrArg AKeyPair.pub e

end

/-! ### Keys of tracers -/

/-- an X25519 public key: 32 bytes -/
abbrev XPub := { b : Bytes // b.length = 32 }

/-- an X25519 secret key: 32 clamped bytes -/
abbrev XSec := { b : Bytes // b.length = 32 ∧ clamp b = b }

/-- `XPublicKey`, crypto/src/basic/hybrid_encryption.rs:23-41 -/
def jXPub : Codec XPub := jLeaf Subtype.val (fun b => if h : b.length = 32 then .ok ⟨b, h⟩ else .err)

/-- `XSecretKey`, hybrid_encryption.rs:66-85: `StaticSecret::from` clamps what it is given -/
def jXSec : Codec XSec :=
  jLeaf Subtype.val (fun b => if h : b.length = 32 then .ok ⟨clamp b, by rw [Xfr.clamp_length, h], Xfr.clamp_clamp b⟩ else .err)

theorem good_xPub : jXPub.Good 0 := good_leaf (fun b => dif_pos b.2)

theorem good_xSec : jXSec.Good 0 := good_leaf (fun b => by
  rw [dif_pos b.2.1]
  exact congrArg Res.ok (Subtype.ext b.2.2))

/-- the bytes of scalars and points of two groups and how they are read: Ristretto and BLS12-381 G1 in tracer keys, G1 and G2 in credentials -/
structure Bytewise (α : Type) where
  write : α → Bytes
  read : Bytes → Res α

/-- what is written is read -/
def Bytewise.Good {α : Type} (b : Bytewise α) : Prop := ∀ a, b.read (b.write a) = .ok a

/-- an object in base64 -/
def Bytewise.json {α : Type} (b : Bytewise α) : Codec α := jLeaf b.write b.read

theorem Bytewise.Good.json {α : Type} {b : Bytewise α} (h : b.Good) : b.json.Good 0 := good_leaf h

section
variable {F G F' H : Type} (bF : Bytewise F) (bG : Bytewise G) (bF' : Bytewise F') (bH : Bytewise H)

/-- keys as the tracer uses them (`Xfr/TracerMemo.lean`) whose X25519 part has the form that the library gives it -/
abbrev TracerEnc (G H : Type) := { k : EncKeys G H // k.lock.length = 32 }
abbrev TracerDec (F F' : Type) := { k : DecKeys F F' // k.lock.length = 32 ∧ clamp k.lock = k.lock }

/-- `AssetTracerEncKeys`, api/src/xfr/structs.rs:262-271; `ElGamalEncKey` is a newtype of a point (crypto/src/basic/elgamal.rs) -/
def jTracerEnc : Codec (TracerEnc G H) :=
  (Rec.cons (ascii! "record_data_enc_key") bG.json <| Rec.cons (ascii! "attrs_enc_key") bH.json <|
    Rec.cons (ascii! "lock_info_enc_key") jXPub Rec.nil).codec.via
    (fun k => (k.1.data, k.1.attrs, ⟨k.1.lock, k.2⟩, ())) (fun (a, b, c, _) => .ok ⟨⟨a, b, c.1⟩, c.2⟩)

/-- `AssetTracerDecKeys`, structs.rs:273-282 -/
def jTracerDec : Codec (TracerDec F F') :=
  (Rec.cons (ascii! "record_data_dec_key") bF.json <| Rec.cons (ascii! "attrs_dec_key") bF'.json <|
    Rec.cons (ascii! "lock_info_dec_key") jXSec Rec.nil).codec.via
    (fun k => (k.1.data, k.1.attrs, ⟨k.1.lock, k.2⟩, ())) (fun (a, b, c, _) => .ok ⟨⟨a, b, c.1⟩, c.2⟩)

/-- `AssetTracerKeyPair`, structs.rs:284-291 -/
def jTracerPair : Codec (TracerDec F F' × TracerEnc G H) :=
  (Rec.cons (ascii! "enc_key") (jTracerEnc bG bH) <| Rec.cons (ascii! "dec_key") (jTracerDec bF bF') Rec.nil).codec.via
    (fun p => (p.2, p.1, ())) (fun (a, b, _) => .ok (b, a))

variable {bF bG bF' bH} (hF : bF.Good) (hG : bG.Good) (hF' : bF'.Good) (hH : bH.Good)

include hG hH in
theorem good_tracerEnc : (jTracerEnc bG bH).Good 1 :=
  good_via (good_rec (rc hG.json <| rc hH.json <| rc good_xPub rec_good_nil)) (fun _ => rfl)

include hF hF' in
theorem good_tracerDec : (jTracerDec bF bF').Good 1 :=
  good_via (good_rec (rc hF.json <| rc hF'.json <| rc good_xSec rec_good_nil)) (fun _ => rfl)

include hF hG hF' hH

theorem good_tracerPair : (jTracerPair bF bG bF' bH).Good 2 :=
  good_via (good_rec (rc (good_tracerEnc hG hH) <| rc (good_tracerDec hF hF') rec_good_nil)) (fun _ => rfl)

/-- C107: The keys that a tracer generates are read back from any JSON text of them, and so decrypt what they did before. -/
theorem C107_tracer_keys {AT E K : Type} [Field F] [AddCommGroup G] [Module F G] [Field F'] [AddCommGroup H] [Module F' H] [AddCommGroup E]
    [AddCommGroup K] (T : TraceExt F G F' H AT E K) (hT : Xfr.MemoLaws T.toMemoPrims) (s : F) (a : F') (x : Bytes) (hx : x.length = 32) :
    ∃ p : TracerDec F F' × TracerEnc G H, (p.1.1, p.2.1) = T.generate s a x ∧
      ∀ j, Reord ((jTracerPair bF bG bF' bH).ser p) j → ∀ t, Writes j t → ∀ w v, Spaces w → Spaces v →
        fromJson (jTracerPair bF bG bF' bH) (w ++ (t ++ v)) = .ok p := by
  refine ⟨(⟨(T.generate s a x).1, ?_, ?_⟩, ⟨(T.generate s a x).2, ?_⟩), rfl, fun j hj t ht w v hw hv =>
    fromJson_writes (good_tracerPair hF hG hF' hH) (by decide) _ hj ht w v hw hv⟩
  · simp only [TraceExt.generate, Xfr.xSecret, Xfr.clamp_length, hx]
  · exact Xfr.clamp_clamp x
  · exact hT.x_len _ _

/-- C107: The encryption keys in a document need not be those of its decryption keys: a decryption key is read next to any encryption
key. -/
theorem C107_tracer_keys_violated [SMul F G] (base : G) (d : TracerDec F F') (e : TracerEnc G H) (h : e.1.data ≠ d.1.data • base) :
    ∃ p, fromJson (jTracerPair bF bG bF' bH) ((Json.obj [(ascii! "enc_key", (jTracerEnc bG bH).ser e),
      (ascii! "dec_key", (jTracerDec bF bF').ser d)]).text) = .ok p ∧ p.2.1.data ≠ p.1.1.data • base :=
  ⟨(d, e), fromJson_toJson (good_tracerPair hF hG hF' hH) (by decide) (d, e), h⟩

end

/-! ### Credentials -/

section
variable {F G1 G2 : Type} (bF : Bytewise F) (b1 : Bytewise G1) (b2 : Bytewise G2)

/-- `CredentialIssuerPK`, crypto/src/anon_creds.rs:14-27 -/
def jIssuerPK : Codec (AnonCreds.IssuerPK G1 G2) :=
  (Rec.cons (ascii! "gen2") b2.json <| Rec.cons (ascii! "xx2") b2.json <| Rec.cons (ascii! "zz1") b1.json <|
    Rec.cons (ascii! "zz2") b2.json <| Rec.cons (ascii! "yy2") (jVec b2.json) Rec.nil).codec.via
    (fun k => (k.gen2, k.xx2, k.zz1, k.zz2, k.yy2, ())) (fun (a, b, c, d, e, _) => .ok ⟨a, b, c, d, e⟩)

/-- `CredentialIssuerSK`, anon_creds.rs:36-45 -/
def jIssuerSK : Codec (AnonCreds.IssuerSK F G1) :=
  (Rec.cons (ascii! "gen1") b1.json <| Rec.cons (ascii! "x") bF.json <| Rec.cons (ascii! "y") (jVec bF.json) Rec.nil).codec.via
    (fun k => (k.gen1, k.x, k.y, ())) (fun (a, b, c, _) => .ok ⟨a, b, c⟩)

/-- `CredentialSig`, anon_creds.rs:47-54, and its newtype `CredentialComm`, 92-94 -/
def jCredSig : Codec (AnonCreds.Sig G1) :=
  (Rec.cons (ascii! "sigma1") b1.json <| Rec.cons (ascii! "sigma2") b1.json Rec.nil).codec.via
    (fun s => (s.sigma1, s.sigma2, ())) (fun (a, b, _) => .ok ⟨a, b⟩)

/-- `Credential`, anon_creds.rs:65-74; the attributes are `u32` (api/src/anon_creds.rs:42) -/
def jCredential : Codec (AnonCreds.Credential UInt32 G1 G2) :=
  (Rec.cons (ascii! "sig") (jCredSig b1) <| Rec.cons (ascii! "attrs") (jVec jU32) <| Rec.cons (ascii! "ipk") (jIssuerPK b1 b2) Rec.nil).codec.via
    (fun c => (c.sig, c.attrs, c.ipk, ())) (fun (a, b, c, _) => .ok ⟨a, b, c⟩)

/-- `CredentialCommRandomizer`, anon_creds.rs:157-164 -/
def jRandomizer : Codec (AnonCreds.Randomizer F) :=
  (Rec.cons (ascii! "r") bF.json <| Rec.cons (ascii! "t") bF.json Rec.nil).codec.via (fun r => (r.r, r.t, ())) (fun (a, b, _) => .ok ⟨a, b⟩)

variable {bF b1 b2} (hF : bF.Good) (h1 : b1.Good) (h2 : b2.Good)

include h1 in
theorem good_credSig : (jCredSig b1).Good 1 := good_via (good_rec (rc h1.json <| rc h1.json rec_good_nil)) (fun _ => rfl)

include h1 h2 in
theorem good_issuerPK : (jIssuerPK b1 b2).Good 2 :=
  good_via (good_rec (rc h2.json <| rc h2.json <| rc h1.json <| rc h2.json <| rc (good_vec h2.json) rec_good_nil)) (fun _ => rfl)

include hF h1 in
theorem good_issuerSK : (jIssuerSK bF b1).Good 2 :=
  good_via (good_rec (rc h1.json <| rc hF.json <| rc (good_vec hF.json) rec_good_nil)) (fun _ => rfl)

include h1 h2 in
theorem good_credential : (jCredential b1 b2).Good 3 :=
  good_via (good_rec (rc (good_credSig h1) <| rc (good_vec good_u32) <| rc (good_issuerPK h1 h2) rec_good_nil)) (fun _ => rfl)

include hF in
theorem good_randomizer : (jRandomizer bF).Good 1 := good_via (good_rec (rc hF.json <| rc hF.json rec_good_nil)) (fun _ => rfl)

include hF h1 in
/-- C107: the secret key of an issuer -/
theorem C107_issuer_secret (k : AnonCreds.IssuerSK F G1) {j : Json} (hj : Reord ((jIssuerSK bF b1).ser k) j) {t : Bytes} (ht : Writes j t)
    (w v : Bytes) (hw : Spaces w) (hv : Spaces v) : fromJson (jIssuerSK bF b1) (w ++ (t ++ v)) = .ok k :=
  fromJson_writes (good_issuerSK hF h1) (by decide) k hj ht w v hw hv

include h1 h2 in
/-- C107: the public key of an issuer, and a credential with it -/
theorem C107_credential (c : AnonCreds.Credential UInt32 G1 G2) {j : Json} (hj : Reord ((jCredential b1 b2).ser c) j) {t : Bytes}
    (ht : Writes j t) (w v : Bytes) (hw : Spaces w) (hv : Spaces v) : fromJson (jCredential b1 b2) (w ++ (t ++ v)) = .ok c :=
  fromJson_writes (good_credential h1 h2) (by decide) c hj ht w v hw hv

include hF in
/-- C107: the key of a commitment to a credential -/
theorem C107_commitment_key (r : AnonCreds.Randomizer F) {j : Json} (hj : Reord ((jRandomizer bF).ser r) j) {t : Bytes} (ht : Writes j t)
    (w v : Bytes) (hw : Spaces w) (hv : Spaces v) : fromJson (jRandomizer bF) (w ++ (t ++ v)) = .ok r :=
  fromJson_writes (good_randomizer hF) (by decide) r hj ht w v hw hv

end

/-! ### Policies -/

/-- `IdentityRevealPolicy`, api/src/xfr/structs.rs:360-367 -/
structure IdPolicy (G1 G2 : Type) where
  issuer : AnonCreds.IssuerPK G1 G2
  revealMap : List Bool

/-- `TracingPolicy`, structs.rs:349-358, with all keys -/
structure FullPolicy (G G1 G2 : Type) where
  encKeys : TracerEnc G G1
  assetTracing : Bool
  identityTracing : Option (IdPolicy G1 G2)

/-- `XfrNotePolicies`, api/src/xfr/mod.rs:589-601 -/
structure NotePolicies (G G1 G2 : Type) where
  valid : Bool
  inputs : List (List (FullPolicy G G1 G2))
  inputsComs : List (Option (AnonCreds.Sig G1))
  outputs : List (List (FullPolicy G G1 G2))
  outputsComs : List (Option (AnonCreds.Sig G1))

section
variable {G G1 G2 : Type} (bG : Bytewise G) (b1 : Bytewise G1) (b2 : Bytewise G2)

/-- `IdentityRevealPolicy`, structs.rs:360-367 -/
def jIdPolicy : Codec (IdPolicy G1 G2) :=
  (Rec.cons (ascii! "cred_issuer_pub_key") (jIssuerPK b1 b2) <| Rec.cons (ascii! "reveal_map") (jVec jBool) Rec.nil).codec.via
    (fun p => (p.issuer, p.revealMap, ())) (fun (a, b, _) => .ok ⟨a, b⟩)

/-- `TracingPolicy`, structs.rs:349-358 -/
def jPolicy : Codec (FullPolicy G G1 G2) :=
  (Rec.cons (ascii! "enc_keys") (jTracerEnc bG b1) <| Rec.cons (ascii! "asset_tracing") jBool <|
    Rec.cons (ascii! "identity_tracing") (jOption (jIdPolicy b1 b2)) Rec.nil).codec.via
    (fun p => (p.encKeys, p.assetTracing, p.identityTracing, ())) (fun (a, b, c, _) => .ok ⟨a, b, c⟩)

/-- `TracingPolicies`, structs.rs:315-317, a newtype of a list -/
def jPolicies : Codec (List (FullPolicy G G1 G2)) := jVec (jPolicy bG b1 b2)

/-- `XfrNotePolicies`, api/src/xfr/mod.rs:589-601 -/
def jNotePolicies : Codec (NotePolicies G G1 G2) :=
  (Rec.cons (ascii! "valid") jBool <| Rec.cons (ascii! "inputs_tracing_policies") (jVec (jPolicies bG b1 b2)) <|
    Rec.cons (ascii! "inputs_sig_commitments") (jVec (jOption (jCredSig b1))) <|
    Rec.cons (ascii! "outputs_tracing_policies") (jVec (jPolicies bG b1 b2)) <|
    Rec.cons (ascii! "outputs_sig_commitments") (jVec (jOption (jCredSig b1))) Rec.nil).codec.via
    (fun p => (p.valid, p.inputs, p.inputsComs, p.outputs, p.outputsComs, ())) (fun (a, b, c, d, e, _) => .ok ⟨a, b, c, d, e⟩)

variable {bG b1 b2} (hG : bG.Good) (h1 : b1.Good) (h2 : b2.Good)

include h1 h2 in
theorem good_idPolicy : (jIdPolicy b1 b2).Good 3 :=
  good_via (good_rec (rc (good_issuerPK h1 h2) <| rc (good_vec good_bool) rec_good_nil)) (fun _ => rfl)

include hG h1 h2

theorem good_policies : (jPolicies bG b1 b2).Good 5 :=
  good_vec (c := jPolicy bG b1 b2) (good_via (good_rec (rc (good_tracerEnc hG h1) <| rc good_bool <|
    rc (good_option (good_idPolicy h1 h2) (fun _ => rec_ne_null _ _)) rec_good_nil)) (fun _ => rfl))

theorem good_notePolicies : (jNotePolicies bG b1 b2).Good 7 :=
  good_via (good_rec (rc good_bool <| rc (good_vec (good_policies hG h1 h2)) <|
    rc (good_vec (good_option (good_credSig h1) (fun _ => rec_ne_null _ _))) <| rc (good_vec (good_policies hG h1 h2)) <|
    rc (good_vec (good_option (good_credSig h1) (fun _ => rec_ne_null _ _))) rec_good_nil)) (fun _ => rfl)

/-- C107: The policies by which a note is verified are read back from any JSON text of them. -/
theorem C107_policies (p : NotePolicies G G1 G2) {j : Json} (hj : Reord ((jNotePolicies bG b1 b2).ser p) j) {t : Bytes} (ht : Writes j t)
    (w v : Bytes) (hw : Spaces w) (hv : Spaces v) : fromJson (jNotePolicies bG b1 b2) (w ++ (t ++ v)) = .ok p :=
  fromJson_writes (good_notePolicies hG h1 h2) (by decide) p hj ht w v hw hv

end

/-! ### Opened records -/

/-- `AssetRecordType`, api/src/xfr/asset_record.rs:18-29; the four names -/
def recordTypeName : Bool × Bool → Bytes
  | (false, true) => ascii! "NonConfidentialAmount_ConfidentialAssetType"
  | (true, false) => ascii! "ConfidentialAmount_NonConfidentialAssetType"
  | (true, true) => ascii! "ConfidentialAmount_ConfidentialAssetType"
  | (false, false) => ascii! "NonConfidentialAmount_NonConfidentialAssetType"

/-- the variant of a name -/
def recordTypeOf (s : Bytes) : Res (Bool × Bool) :=
  if s = ascii! "NonConfidentialAmount_ConfidentialAssetType" then .ok (false, true)
  else if s = ascii! "ConfidentialAmount_NonConfidentialAssetType" then .ok (true, false)
  else if s = ascii! "ConfidentialAmount_ConfidentialAssetType" then .ok (true, true)
  else if s = ascii! "NonConfidentialAmount_NonConfidentialAssetType" then .ok (false, false)
  else .err

/-- `AssetRecordType` as the two flags of `get_flags` (asset_record.rs:35-43) -/
def jRecordType : Codec (Bool × Bool) where
  ser t := .str (recordTypeName t)
  de := deEnum recordTypeOf (fun n v => match v with
    | .null => recordTypeOf n
    | _ => .err)
  missing := .err

theorem good_recordType : jRecordType.Good 0 where
  back t := by
    have : ∀ a b : Bool, recordTypeOf (recordTypeName (a, b)) = .ok (a, b) := by decide
    exact this t.1 t.2
  depth _ := by simp [jRecordType, Json.depth]
  perm := deEnum_perm (fun n v v' a hv h => by
    cases v with
    | null => rw [reord_null hv]; exact h
    | _ => cases h)

/-- `AssetRecord`, structs.rs:612-627, with the policies in full -/
structure FullRecord (S : Types) (G G1 G2 : Type) where
  oar : OpenAssetRecord S
  policies : List (FullPolicy G G1 G2)
  identityProofs : List (Option S.IPf)
  tracersMemos : List (TracerMemo S)
  ownerMemo : Option S.OM

/-- `AssetRecordTemplate`, structs.rs:629-643 -/
structure Template (S : Types) (G G1 G2 : Type) where
  amount : UInt64
  assetType : S.AT
  publicKey : S.PK
  recordType : Bool × Bool
  policies : List (FullPolicy G G1 G2)

section
variable {S : Types} (L : Leaves S) (R : Parse S) (lay : WMemo → Layout) (bF : Bytewise S.F) {G G1 G2 : Type} (bG : Bytewise G)
  (b1 : Bytewise G1) (b2 : Bytewise G2)

/-- `AssetType`, structs.rs:24-26, a newtype of `[u8; 32]` -/
def jType : Codec S.AT := jArray32.via L.at' (fun b => .ok (R.at' b))

/-- `OpenAssetRecord`, structs.rs:577-592 -/
def jOpenRecord : Codec (OpenAssetRecord S) :=
  (Rec.cons (ascii! "blind_asset_record") (jBar L R) <| Rec.cons (ascii! "amount") jDecimal <|
    Rec.cons (ascii! "amount_blinds") (jPair bF.json bF.json) <| Rec.cons (ascii! "asset_type") (jType L R) <|
    Rec.cons (ascii! "type_blind") bF.json Rec.nil).codec.via
    (fun o => (o.bar, o.amount, o.amountBlinds, o.assetType, o.typeBlind, ())) (fun (a, b, c, d, e, _) => .ok ⟨a, b, c, d, e⟩)

/-- `AssetRecord`, structs.rs:612-627 -/
def jFullRecord : Codec (FullRecord S G G1 G2) :=
  (Rec.cons (ascii! "open_asset_record") (jOpenRecord L R bF) <| Rec.cons (ascii! "tracing_policies") (jPolicies bG b1 b2) <|
    Rec.cons (ascii! "identity_proofs") (jVec (jOption (jCac.via L.ipf R.ipf))) <|
    Rec.cons (ascii! "asset_tracers_memos") (jVec (jTracerMemo L R)) <| Rec.cons (ascii! "owner_memo") (jOwnerMemo L R lay) Rec.nil).codec.via
    (fun o => (o.oar, o.policies, o.identityProofs, o.tracersMemos, o.ownerMemo, ())) (fun (a, b, c, d, e, _) => .ok ⟨a, b, c, d, e⟩)

/-- `AssetRecordTemplate`, structs.rs:629-643 -/
def jTemplate : Codec (Template S G G1 G2) :=
  (Rec.cons (ascii! "amount") jDecimal <| Rec.cons (ascii! "asset_type") (jType L R) <| Rec.cons (ascii! "public_key") (jLeaf L.pk R.pk) <|
    Rec.cons (ascii! "asset_record_type") jRecordType <| Rec.cons (ascii! "asset_tracing_policies") (jPolicies bG b1 b2) Rec.nil).codec.via
    (fun o => (o.amount, o.assetType, o.publicKey, o.recordType, o.policies, ())) (fun (a, b, c, d, e, _) => .ok ⟨a, b, c, d, e⟩)

variable {L R lay bF bG b1 b2} {sg : S.Sg → Bytes} (hR : R.Of L sg) (hl : ∀ m, (lay m).Fits m) (hF : bF.Good) (hG : bG.Good) (h1 : b1.Good)
  (h2 : b2.Good)
include hR

theorem good_type : (jType L R).Good 1 := good_via good_array32 (fun t => by rw [hR.at'])

include hG h1 h2 in
theorem good_template : (jTemplate L R bG b1 b2).Good 6 :=
  good_via (good_rec (rc good_decimal <| rc (good_type hR) <| rc (good_leaf hR.pk) <| rc good_recordType <|
    rc (good_policies hG h1 h2) rec_good_nil)) (fun _ => rfl)

include hF

theorem good_openRecord : (jOpenRecord L R bF).Good 4 :=
  good_via (good_rec (rc (good_bar hR) <| rc good_decimal <| rc (good_pair hF.json hF.json) <| rc (good_type hR) <|
    rc hF.json rec_good_nil)) (fun _ => rfl)

include hl hG h1 h2 in
theorem good_fullRecord : (jFullRecord L R lay bF bG b1 b2).Good 6 :=
  good_via (good_rec (rc (good_openRecord hR hF) <| rc (good_policies hG h1 h2) <|
    rc (good_vec (good_option (good_via good_cac hR.ipf) (fun _ => cac_ne_null _))) <| rc (good_vec (good_tracerMemo hR)) <|
    rc (good_ownerMemo hR hl) rec_good_nil)) (fun _ => rfl)

/-- C107: an opened record, with its amount, type and blinding factors -/
theorem C107_open_record (o : OpenAssetRecord S) {j : Json} (hj : Reord ((jOpenRecord L R bF).ser o) j) {t : Bytes} (ht : Writes j t)
    (w v : Bytes) (hw : Spaces w) (hv : Spaces v) : fromJson (jOpenRecord L R bF) (w ++ (t ++ v)) = .ok o :=
  fromJson_writes (good_openRecord hR hF) (by decide) o hj ht w v hw hv

include hl hG h1 h2 in
/-- C107: a record with its policies, identity proofs and memos, the owner memo in any layout that can express it -/
theorem C107_asset_record (o : FullRecord S G G1 G2) {j : Json} (hj : Reord ((jFullRecord L R lay bF bG b1 b2).ser o) j) {t : Bytes}
    (ht : Writes j t) (w v : Bytes) (hw : Spaces w) (hv : Spaces v) :
    fromJson (jFullRecord L R (fun _ => newLayout) bF bG b1 b2) (w ++ (t ++ v)) = .ok o := by
  have e : fromJson (jFullRecord L R lay bF bG b1 b2) = fromJson (jFullRecord L R (fun _ => newLayout) bF bG b1 b2) := rfl
  exact e ▸ fromJson_writes (good_fullRecord hR hl hF hG h1 h2) (by decide) o hj ht w v hw hv

omit hF in
include hG h1 h2 in
/-- C107: the template of an output -/
theorem C107_template (o : Template S G G1 G2) {j : Json} (hj : Reord ((jTemplate L R bG b1 b2).ser o) j) {t : Bytes} (ht : Writes j t)
    (w v : Bytes) (hw : Spaces w) (hv : Spaces v) : fromJson (jTemplate L R bG b1 b2) (w ++ (t ++ v)) = .ok o :=
  fromJson_writes (good_template hR hG h1 h2) (by decide) o hj ht w v hw hv

/-- C107: The opening in a document need not be that of its record: a public record of amount `a` is read together with any other
amount. -/
theorem C107_open_record_violated (a b : UInt64) (hab : a ≠ b) (ty : S.AT) (pk : S.PK) (x y z : S.F) :
    ∃ o, fromJson (jOpenRecord L R bF) (toJson (jOpenRecord L R bF) ⟨⟨.plain a, .plain ty, pk⟩, b, (x, y), ty, z⟩) = .ok o ∧
      o.bar.amount.getAmount ≠ some o.amount :=
  ⟨_, fromJson_toJson (good_openRecord hR hF) (by decide) ⟨⟨.plain a, .plain ty, pk⟩, b, (x, y), ty, z⟩, fun h => hab (Option.some.inj h)⟩

end

/-! ### Anonymous records in a wallet -/

section
variable {F AT K : Type} (bF : Bytewise F) (bA : Bytewise K) (at32 : AT → { b : Bytes // b.length = 32 }) (atOf : { b : Bytes // b.length = 32 } → AT)

/-- a node whose two flags are bytes -/
abbrev Node (F : Type) := { n : MTNode F // n.isLeftChild < 256 ∧ n.isRightChild < 256 }

/-- `MTNode`, api/src/anon_xfr/structs.rs:19-31; the flags are `u8` -/
def jNode : Codec (Node F) :=
  (Rec.cons (ascii! "siblings1") bF.json <| Rec.cons (ascii! "siblings2") bF.json <| Rec.cons (ascii! "is_left_child") (jNat 256) <|
    Rec.cons (ascii! "is_right_child") (jNat 256) Rec.nil).codec.via
    (fun n => (n.1.siblings1, n.1.siblings2, ⟨n.1.isLeftChild, n.2.1⟩, ⟨n.1.isRightChild, n.2.2⟩, ()))
    (fun (a, b, c, d, _) => .ok ⟨⟨a, b, c.1, d.1⟩, c.2, d.2⟩)

/-- a path whose flags are bytes -/
def PathOk (l : List (MTNode F)) : Prop := ∀ n ∈ l, n.isLeftChild < 256 ∧ n.isRightChild < 256

/-- `MTPath`, structs.rs:221-226 -/
def jPath : Codec { l : List (MTNode F) // PathOk l } :=
  (Rec.cons (ascii! "nodes") (jVec (jNode bF)) Rec.nil).codec.via
    (fun l => (l.1.attach.map (fun n => ⟨n.1, l.2 n.1 n.2⟩), ()))
    (fun (l, _) => .ok ⟨l.map Subtype.val, fun _ hn => by
      obtain ⟨m, _, rfl⟩ := List.mem_map.mp hn
      exact m.2⟩)

/-- a position whose flags are bytes -/
abbrev Leaf (F : Type) := { l : LeafInfo F // PathOk l.path }

/-- `MTLeafInfo`, structs.rs:57-68 -/
def jLeafInfo : Codec (Leaf F) :=
  (Rec.cons (ascii! "path") (jPath bF) <| Rec.cons (ascii! "root") bF.json <| Rec.cons (ascii! "root_version") jU64 <|
    Rec.cons (ascii! "uid") jU64 Rec.nil).codec.via
    (fun l => (⟨l.1.path, l.2⟩, l.1.root, l.1.version, l.1.uid, ())) (fun (a, b, c, d, _) => .ok ⟨⟨a.1, b, c, d⟩, a.2⟩)

/-- an opened record whose position, if there is one, has bytes for flags -/
abbrev Coin (F AT K : Type) := { o : OpenAbarAt F AT K // ∀ l, o.leaf = some l → PathOk l.path }

/-- `OpenAnonAssetRecord`, structs.rs:80-89 -/
def jCoin : Codec (Coin F AT K) :=
  (Rec.cons (ascii! "amount") jU64 <| Rec.cons (ascii! "asset_type") (jArray32.via at32 (fun b => .ok (atOf b))) <|
    Rec.cons (ascii! "blind") bF.json <| Rec.cons (ascii! "pub_key") bA.json <|
    Rec.cons (ascii! "owner_memo") (jOption (jAMemo bA.write bA.read)) <|
    Rec.cons (ascii! "mt_leaf_info") (jOption (jLeafInfo bF)) Rec.nil).codec.via
    (fun o => (o.1.amount, o.1.ty, o.1.blind, o.1.pub, o.1.memo, (match h : o.1.leaf with
      | some l => some ⟨l, o.2 l h⟩
      | none => none), ()))
    (fun (a, b, c, d, e, f, _) => .ok ⟨⟨⟨a, b, c, d, e⟩, f.map Subtype.val⟩, fun l h => by
      cases f with
      | none => cases h
      | some x => cases h; exact x.2⟩)

variable {bF bA at32 atOf} (hF : bF.Good) (hA : bA.Good) (hat : ∀ t, atOf (at32 t) = t)
include hF

theorem good_node : (jNode bF).Good 1 :=
  good_via (good_rec (rc hF.json <| rc hF.json <| rc (good_nat _) <| rc (good_nat _) rec_good_nil)) (fun _ => rfl)

theorem good_path : (jPath bF).Good 3 :=
  good_via (good_rec (rc (good_vec (good_node hF)) rec_good_nil)) (fun l => by
    refine congrArg Res.ok (Subtype.ext ?_)
    simp)

theorem good_leafInfo : (jLeafInfo bF).Good 4 :=
  good_via (good_rec (rc (good_path hF) <| rc hF.json <| rc good_u64 <| rc good_u64 rec_good_nil)) (fun _ => rfl)

include hA hat

theorem good_coin : (jCoin bF bA at32 atOf).Good 5 :=
  good_via (good_rec (rc good_u64 <| rc (good_via good_array32 (fun t => by rw [hat])) <| rc hF.json <| rc hA.json <|
    rc (good_option (good_aMemo hA) (fun _ => rec_ne_null _ _)) <|
    rc (good_option (good_leafInfo hF) (fun _ => rec_ne_null _ _)) rec_good_nil)) (fun o => by
      obtain ⟨⟨⟨a, b, c, d, e⟩, l⟩, h⟩ := o
      cases l with
      | none => rfl
      | some l => rfl)

/-- C107: An opened anonymous record, with its memo and its place in the tree, is read back from any JSON text of it. -/
theorem C107_anon_record (o : Coin F AT K) {j : Json} (hj : Reord ((jCoin bF bA at32 atOf).ser o) j) {t : Bytes} (ht : Writes j t)
    (w v : Bytes) (hw : Spaces w) (hv : Spaces v) : fromJson (jCoin bF bA at32 atOf) (w ++ (t ++ v)) = .ok o :=
  fromJson_writes (good_coin hF hA hat) (by decide) o hj ht w v hw hv

/-- C107: A record without memo and without place in the tree is also read from a document that does not mention them. -/
theorem C107_anon_record_bare (a : UInt64) (ty : AT) (x : F) (k : K) :
    fromJson (jCoin bF bA at32 atOf) ((Json.obj [(ascii! "amount", .num a.toNat), (ascii! "asset_type", jArray32.ser (at32 ty)),
      (ascii! "blind", .str (b64enc (bF.write x))), (ascii! "pub_key", .str (b64enc (bA.write k)))]).text) =
      .ok ⟨⟨⟨a, ty, x, k, none⟩, none⟩, fun _ h => by cases h⟩ := by
  have e0 : jU64.de (.num a.toNat) = .ok a := good_u64.back a
  have e1 := (good_via (f := at32) (g := fun b => .ok (atOf b)) good_array32 (fun t => by rw [hat])).back ty
  have e2 : bF.json.de (.str (b64enc (bF.write x))) = .ok x := hF.json.back x
  have e3 : bA.json.de (.str (b64enc (bA.write k))) = .ok k := hA.json.back k
  change (jArray32.via at32 (fun b => .ok (atOf b))).de (jArray32.ser (at32 ty)) = .ok ty at e1
  have hd := good_array32.depth (at32 ty)
  unfold fromJson
  rw [parseJson_text _ (by simp only [Json.depth, membersDepth]; omega), Res.ofOption_some, Res.bind_ok]
  unfold jCoin
  change (Codec.de (Rec.codec _) _ >>= _) = _
  simp [Rec.codec, Rec.cons, Rec.nil, List.foldlM_cons, e0, e1, e2, e3, jOption]

end

end Verif.Serde
