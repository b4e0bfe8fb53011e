import Verif.Serde.JsonExamples
import Verif.Serde.JsonWallet

/-!
C107 on concrete keys and records.
-/

namespace Verif.Serde

open Verif.Xfr Verif.Anon Verif.SimFr

/-- a small field, an element is one byte -/
def tiny : Bytewise (ZMod 7) where
  write x := [UInt8.ofNat x.val]
  read b := match b with
    | [x] => if x.toNat < 7 then .ok (x.toNat : ZMod 7) else .err
    | _ => .err

theorem tiny_good : tiny.Good := by
  unfold Bytewise.Good
  decide

instance : Fact (Nat.Prime 7) := ⟨by decide⟩

/-- points of the two groups are their discrete logarithms -/
@[reducible] def tinyTrace : TraceExt (ZMod 7) (ZMod 7) (ZMod 7) (ZMod 7) (Fix 32) (ZMod 97) (ZMod 101) where
  toMemoPrims := toyPrims
  gBase := 3
  hBase := 5
  asScalar := fun t => (ofLE t.1 : ZMod 7)
  atBytes := fun t => t.1
  atOf := fun b => if h : b.length = 32 then ⟨b, h⟩ else ⟨List.replicate 32 0, rfl⟩

def noAddr : toyPrims.ScPK → Addr := fun _ => ⟨List.replicate 20 0, rfl⟩

/-- a key pair of Ed25519, as the toy library makes it -/
def walletKeys (seed : Bytes) (h : seed.length = 32) : KeyPair toyKeys := ⟨.ed25519 ⟨seed, h⟩, .ed25519 ⟨seed, h⟩⟩

/-- the text of a key pair: 34 bytes and 33 bytes in base64, the first of each the type of the key -/
example : toJson (jKeyPair toyKeys) (walletKeys (List.replicate 32 7) rfl) =
    ascii! "{\"pub_key\":\"AAcHBwcHBwcHBwcHBwcHBwcHBwcHBwcHBwcHBwcHBwcHAA==\",\"sec_key\":\"AAcHBwcHBwcHBwcHBwcHBwcHBwcHBwcHBwcHBwcHBwcH\"}" := by
  decide +kernel

/-- C107: the secret key first, spaces between -/
example : fromJson (jKeyPair toyKeys)
    ([32] ++ ((Json.obj [(ascii! "sec_key", (jSecKey toyKeys).ser (walletKeys (List.replicate 32 7) rfl).sec),
      (ascii! "pub_key", (jPubKey toyKeys).ser (walletKeys (List.replicate 32 7) rfl).pub)]).text ++ [10])) =
    .ok (walletKeys (List.replicate 32 7) rfl) :=
  C107_key_pair toyKeys_laws (walletKeys (List.replicate 32 7) rfl)
    (.obj _ _ _ rfl (List.forall₂_same.mpr (fun j _ => .refl j)) (List.Perm.swap _ _ _)) (writes_text _) [32] [10] (by decide) (by decide)

/-- C107: the halves of a key pair are not compared -/
example : ∃ p, fromJson (jKeyPair toyPrims.toKeyPrims) ((Json.obj [(ascii! "pub_key", .str (b64enc (PubKey.address (L := toyPrims.toKeyPrims)
      ⟨List.replicate 20 1, rfl⟩).toBytes)), (ascii! "sec_key", .str (b64enc (SecKey.address (L := toyPrims.toKeyPrims) ⟨List.replicate 32 5, rfl⟩).toBytes))]).text) =
      .ok p ∧ p.pub ≠ toyPrims.pubOf noAddr p.sec :=
  C107_key_pair_violated toyPrims toyPrims_laws.keys noAddr (.address ⟨List.replicate 32 5, rfl⟩) (.address ⟨List.replicate 20 1, rfl⟩)
    (fun h => by injection h with h; exact absurd (congrArg (fun a => a.1.head?) h) (by decide))

/-- C107: the key pair of an anonymous wallet -/
example : fromJson (jAKeyPair anonX) ([] ++ (toJson (jAKeyPair anonX) ⟨anonX.fromSecret 42, by decide⟩ ++ [])) = .ok ⟨anonX.fromSecret 42, by decide⟩ :=
  C107_anon_key_pair anonX_laws 42 (by decide) (.refl _) (writes_text _) [] [] (by decide) (by decide)

example : ∃ p, fromJson (jAKeyPair anonX) ((Json.obj [(ascii! "secret_key", .str (b64enc (leBytes 32 42))),
    (ascii! "pub_key", .str (b64enc (anonX.kCompress 1)))]).text) = .ok p ∧ p.1 ≠ anonX.fromSecret p.1.sec :=
  C107_anon_key_pair_violated anonX_laws 42 (by decide) 1 (by decide)

/-- C107: the keys of a tracer -/
example : ∃ p : TracerDec (ZMod 7) (ZMod 7) × TracerEnc (ZMod 7) (ZMod 7),
    (p.1.1, p.2.1) = tinyTrace.generate 2 4 (List.replicate 32 255) ∧
    fromJson (jTracerPair tiny tiny tiny tiny) ([] ++ (toJson (jTracerPair tiny tiny tiny tiny) p ++ [9])) = .ok p := by
  obtain ⟨p, h1, h2⟩ := C107_tracer_keys tiny_good tiny_good tiny_good tiny_good tinyTrace toyPrims_laws 2 4 (List.replicate 32 255) rfl
  exact ⟨p, h1, h2 _ (.refl _) _ (writes_text _) [] [9] (by decide) (by decide)⟩

def tinyEnc : TracerEnc (ZMod 7) (ZMod 7) := ⟨⟨2, 1, List.replicate 32 3⟩, rfl⟩
def tinyDec : TracerDec (ZMod 7) (ZMod 7) := ⟨⟨5, 6, clamp (List.replicate 32 255)⟩, by decide, by decide⟩

example : ∃ p, fromJson (jTracerPair tiny tiny tiny tiny) ((Json.obj [(ascii! "enc_key", (jTracerEnc tiny tiny).ser tinyEnc),
      (ascii! "dec_key", (jTracerDec tiny tiny).ser tinyDec)]).text) = .ok p ∧ p.2.1.data ≠ p.1.1.data • (3 : ZMod 7) :=
  C107_tracer_keys_violated tiny_good tiny_good tiny_good tiny_good 3 tinyDec tinyEnc (by decide)

/-- a credential with two attributes -/
def tinyCredential : AnonCreds.Credential UInt32 (ZMod 7) (ZMod 7) := ⟨⟨1, 2⟩, [10, 4000000000], ⟨1, 2, 3, 4, [5, 6]⟩⟩

/-- its text -/
example : toJson (jCredential tiny tiny) tinyCredential = ascii! "{\"sig\":{\"sigma1\":\"AQ==\",\"sigma2\":\"Ag==\"},\"attrs\":[10,4000000000],\"ipk\":{\"gen2\":\"AQ==\",\"xx2\":\"Ag==\",\"zz1\":\"Aw==\",\"zz2\":\"BA==\",\"yy2\":[\"BQ==\",\"Bg==\"]}}" := by
  decide +kernel

example : fromJson (jCredential tiny tiny) ([] ++ (toJson (jCredential tiny tiny) tinyCredential ++ [])) = .ok tinyCredential :=
  C107_credential tiny_good tiny_good tinyCredential (.refl _) (writes_text _) [] [] (by decide) (by decide)

/-- the secret key of the issuer and the key of a commitment -/
example : fromJson (jIssuerSK tiny tiny) ([] ++ (toJson (jIssuerSK tiny tiny) ⟨1, 2, [3, 4, 5]⟩ ++ [])) = .ok ⟨1, 2, [3, 4, 5]⟩ ∧
    fromJson (jRandomizer tiny) ([32] ++ (toJson (jRandomizer tiny) ⟨1, 2⟩ ++ [])) = .ok ⟨1, 2⟩ :=
  ⟨C107_issuer_secret tiny_good tiny_good ⟨1, 2, [3, 4, 5]⟩ (.refl _) (writes_text _) [] [] (by decide) (by decide),
    C107_commitment_key tiny_good ⟨1, 2⟩ (.refl _) (writes_text _) [32] [] (by decide) (by decide)⟩

/-- a policy that traces the asset and the first attribute -/
def tinyPolicy : FullPolicy (ZMod 7) (ZMod 7) (ZMod 7) := ⟨tinyEnc, true, some ⟨⟨1, 2, 3, 4, [5, 6]⟩, [true, false]⟩⟩

def tinyPolicies : NotePolicies (ZMod 7) (ZMod 7) (ZMod 7) := ⟨true, [[tinyPolicy], []], [some ⟨1, 2⟩, none], [[⟨tinyEnc, false, none⟩]], [none]⟩

example : fromJson (jNotePolicies tiny tiny tiny) ([] ++ (toJson (jNotePolicies tiny tiny tiny) tinyPolicies ++ [])) = .ok tinyPolicies :=
  C107_policies tiny_good tiny_good tiny_good tinyPolicies (.refl _) (writes_text _) [] [] (by decide) (by decide)

/-- scalars of Ristretto, as the notes have them -/
def wireScalars : Bytewise wireT.F := ⟨wireSc, wireScR⟩

theorem wireScalars_good : wireScalars.Good := wireScR_of

/-- a confidential record with its opening -/
def walletRecord : OpenAssetRecord wireT := ⟨⟨.conf [3] [4], .conf [5], [1]⟩, 18446744073709551615, (6, 7), wireType, 8⟩

example : fromJson (jOpenRecord wireL wireParse wireScalars) ([] ++ (toJson (jOpenRecord wireL wireParse wireScalars) walletRecord ++ [])) = .ok walletRecord :=
  C107_open_record wireParse_of wireScalars_good walletRecord (.refl _) (writes_text _) [] [] (by decide) (by decide)

/-- a record with everything, its owner memo in the old layout -/
def walletFull : FullRecord wireT (ZMod 7) (ZMod 7) (ZMod 7) := ⟨walletRecord, [tinyPolicy], [none], [⟨[1], some (⟨[1], [2]⟩, ⟨[3], [4]⟩), none, [], [5], [6], ([7], [8])⟩], some oldMemo⟩

example : fromJson (jFullRecord wireL wireParse (fun _ => newLayout) wireScalars tiny tiny tiny)
    ([] ++ (toJson (jFullRecord wireL wireParse oldest wireScalars tiny tiny tiny) walletFull ++ [])) = .ok walletFull :=
  C107_asset_record wireParse_of oldest_fits wireScalars_good tiny_good tiny_good tiny_good walletFull (.refl _) (writes_text _) [] [] (by decide) (by decide)

/-- the template of a confidential output -/
example : fromJson (jTemplate wireL wireParse tiny tiny tiny) ([] ++ (toJson (jTemplate wireL wireParse tiny tiny tiny) ⟨5, wireType, [1], (true, false), [tinyPolicy]⟩ ++ [])) =
    .ok ⟨5, wireType, [1], (true, false), [tinyPolicy]⟩ :=
  C107_template wireParse_of tiny_good tiny_good tiny_good ⟨5, wireType, [1], (true, false), [tinyPolicy]⟩ (.refl _) (writes_text _) [] []
    (by decide) (by decide)

/-- C107: a record of 5 units that claims to open to 6 -/
example : ∃ o, fromJson (jOpenRecord wireL wireParse wireScalars) (toJson (jOpenRecord wireL wireParse wireScalars) ⟨⟨.plain 5, .plain wireType, [1]⟩, 6, (0, 0), wireType, 0⟩) =
    .ok o ∧ o.bar.amount.getAmount ≠ some o.amount :=
  C107_open_record_violated wireParse_of wireScalars_good 5 6 (by decide) wireType [1] 0 0 0

/-- an anonymous record at place 7 of a tree of two levels -/
def walletCoin : Coin (ZMod 7) wireT.AT (ZMod 7) :=
  ⟨⟨⟨1000, wireType, 3, 4, some ⟨5, [1, 2, 3]⟩⟩, some ⟨[⟨1, 2, 1, 0⟩, ⟨3, 4, 0, 1⟩], 5, 9, 7⟩⟩, by
    intro l h
    cases h
    unfold PathOk
    decide⟩

example : fromJson (jCoin tiny tiny id id) ([] ++ (toJson (jCoin tiny tiny id id) walletCoin ++ [])) = .ok walletCoin :=
  C107_anon_record tiny_good tiny_good (fun _ => rfl) walletCoin (.refl _) (writes_text _) [] [] (by decide) (by decide)

/-- the places as text -/
example : ((jLeafInfo tiny).ser ⟨⟨[⟨1, 2, 1, 0⟩], 5, 9, 7⟩, by unfold PathOk; decide⟩).text =
    ascii! "{\"path\":{\"nodes\":[{\"siblings1\":\"AQ==\",\"siblings2\":\"Ag==\",\"is_left_child\":1,\"is_right_child\":0}]},\"root\":\"BQ==\",\"root_version\":9,\"uid\":7}" := by
  decide +kernel

/-- C107: a record that was just received, without memo and place -/
example : fromJson (jCoin tiny tiny id id) ((Json.obj [(ascii! "amount", .num 1000), (ascii! "asset_type", jArray32.ser wireType),
      (ascii! "blind", .str (b64enc [3])), (ascii! "pub_key", .str (b64enc [4]))]).text) =
      .ok ⟨⟨⟨1000, wireType, 3, 4, none⟩, none⟩, fun _ h => by cases h⟩ :=
  C107_anon_record_bare tiny_good tiny_good (fun _ => rfl) 1000 wireType 3 4

end Verif.Serde
