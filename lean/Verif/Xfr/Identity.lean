import Verif.Crypto.ConfidentialCreds
import Verif.Xfr.Inputs
import Verif.Xfr.Tracing

/-!
C110: identity tracing from the issuer to the tracer: the credential of `crypto/src/anon_creds.rs` and `confidential_anon_creds.rs` in the records
and notes of `api/src/xfr`.
-/

namespace Verif.Xfr

open ElGamal Spec
open AnonCreds (IssuerPK Credential Randomizer comm issuerKeygen userKeygen grant getRevealed Pairing ValidSig extractSig Tr)
open ConfidentialCreds (CACPoK CACBlinds cacOpen cacVerify pick Encrypts pick_true pick_false cacPoint extracted C41_complete_partial
  C41_special_sound_partial C41_decrypts C41_identity_commitment_accepted)
open Verif.Sigma (multiExpDefault)

deriving instance DecidableEq for IssuerPK

/-- `IdentityRevealPolicy`, api/src/xfr/structs.rs:360-367 -/
structure RevealPolicy (G1 G2 : Type) where
  issuer : IssuerPK G1 G2
  revealMap : List Bool

/-- the pairing, the hash of the transcripts, and how the types of the transfers hold proofs and commitments -/
structure IdExt (S : Types) (F' G1 G2 Gt : Type) [Field F'] [AddCommGroup G1] [Module F' G1] [AddCommGroup G2] [Module F' G2] [AddCommGroup Gt]
    [Module F' Gt] where
  P : Pairing F' G1 G2 Gt
  hash : Tr G1 G2 → F'
  ipf : CACPoK F' G1 G2 → S.IPf
  sc : AnonCreds.Sig G1 → S.SC

section Defs
variable {S : Types} {F' G1 G2 Gt : Type} [Field F'] [AddCommGroup G1] [Module F' G1] [AddCommGroup G2] [Module F' G2] [AddCommGroup Gt]
  [Module F' Gt] (D : IdExt S F' G1 G2 Gt)

/-- `BLSScalar::from` of the attributes, api/src/anon_creds.rs:386-390 -/
def scalars (F' : Type) [Field F'] (attrs : List UInt32) : List F' := attrs.map (fun a => (a.toNat : F'))

/-- What the constructors of records call (asset_record.rs:188-211 and 264-281): the comparison of the issuers, `ac_confidential_open_commitment`
(api/src/anon_creds.rs:377-402) and `get_revealed_attributes`; `bl n` are the random values of the `n`-th call. -/
def IdExt.cred [DecidableEq G1] [DecidableEq G2] (bl : Nat → CACBlinds F') (usk : F') (c : Credential UInt32 G1 G2) (rand : Randomizer F') :
    CredExt S G1 (RevealPolicy G1 G2) where
  issuerIs := fun j => decide (c.ipk = j.issuer)
  openCom := fun n k j => do
    let r ← cacOpen D.P D.hash (bl n) usk ⟨c.sig, scalars F' c.attrs, c.ipk⟩ (comm c.sig rand) rand j.revealMap k.attrs []
    pure (r.1, D.ipf r.2)
  revealed := fun j => getRevealed c.attrs j.revealMap

end Defs

namespace Spec
variable {S : Types} [Field S.F] [AddCommGroup S.G] [Module S.F S.G] {F' G1 G2 Gt E K : Type} [Field F'] [AddCommGroup G1] [Module F' G1]
  [AddCommGroup G2] [Module F' G2] [AddCommGroup Gt] [Module F' Gt] [DecidableEq G1] [DecidableEq Gt] [AddCommGroup E] [AddCommGroup K]

/-- The verifier of identity proofs is `ac_confidential_verify` (proofs.rs:421-430, api/src/anon_creds.rs:404-424) with the key of the policy and
no message, and attributes are encrypted to the base of the pairing. -/
structure IdentityLaws (W : WalletExt S F' G1 E K (RevealPolicy G1 G2)) (X : Ext S) (D : IdExt S F' G1 G2 Gt) : Prop where
  base : W.hBase = D.P.base1
  verify : ∀ k j cm cts pok, X.acVerify (W.ip k j) (D.sc cm) (cts.map W.act) (D.ipf pok) = true ↔
    cacVerify D.P multiExpDefault D.hash j.issuer k.attrs j.revealMap cm cts pok [] = .ok ()

/-- `sig` was granted by the issuer with the key pair made of these samples, on these attributes, to the user with this secret key.  (Fewer than
796 attributes: for more the multi-exponentiation of the verifier panics, C27.) -/
def Granted {F' G1 G2 : Type} [Field F'] [AddCommGroup G1] [Module F' G1] [AddCommGroup G2] [Module F' G2] (ipk : IssuerPK G1 G2) (usk : F')
    (attrs : List UInt32) (sig : AnonCreds.Sig G1) : Prop :=
  ∃ (x z : F') (gen1 : G1) (gen2 : G2) (y : List F') (u : F'), y.length < 796 ∧ ipk = (issuerKeygen x z gen1 gen2 y).2 ∧
    grant (issuerKeygen x z gen1 gen2 y).1 (userKeygen ipk usk).2 (scalars F' attrs) u = .ok sig

end Spec

theorem pick_map {A B : Type} (f : A → B) (l : List A) (m : List Bool) : pick (l.map f) m = (pick l m).map f := by
  induction l generalizing m with
  | nil => simp [pick]
  | cons a l ih => cases m with
    | nil => simp [pick]
    | cons b m => cases b <;> simp [pick_true, pick_false, ih]

theorem getRevealed_ok {A : Type} {l : List A} {m : List Bool} {as : List A} (h : getRevealed l m = .ok as) : m.length = l.length ∧ as = pick l m := by
  unfold getRevealed at h
  split at h
  · cases h
  · rename_i hl
    exact ⟨not_not.mp hl, (Res.ok.inj h).symm⟩

theorem getRevealed_of {A : Type} {l : List A} {m : List Bool} (h : m.length = l.length) : getRevealed l m = .ok (pick l m) := by
  unfold getRevealed
  rw [if_neg (not_not.mpr h)]
  rfl

section
variable {S : Types} [Field S.F] [AddCommGroup S.G] [Module S.F S.G] {F' G1 G2 Gt E K : Type} [Field F'] [AddCommGroup G1] [Module F' G1]
  [AddCommGroup G2] [Module F' G2] [AddCommGroup Gt] [Module F' Gt] [DecidableEq G1] [DecidableEq G2] [DecidableEq Gt] [AddCommGroup E]
  [AddCommGroup K] {W : WalletExt S F' G1 E K (RevealPolicy G1 G2)} {X : Ext S} {D : IdExt S F' G1 G2 Gt}

omit [DecidableEq G1] [DecidableEq G2] in
theorem granted_length {ipk : IssuerPK G1 G2} {usk : F'} {attrs : List UInt32} {sig : AnonCreds.Sig G1} (h : Granted ipk usk attrs sig) :
    attrs.length = ipk.yy2.length := by
  obtain ⟨x, z, gen1, gen2, y, u, -, rfl, h⟩ := h
  unfold grant at h
  split at h
  · cases h
  · rename_i hl
    simp only [issuerKeygen, scalars, List.length_map, not_not] at hl ⊢
    exact hl.symm

omit [DecidableEq G1] [DecidableEq G2] in
theorem encrypts_zip {base ek : G1} {as : List UInt32} {cts : List (Ct G1)} (h : Encrypts base ek cts (scalars F' as)) :
    ∀ a ∈ as.zip cts, ∃ r : F', a.2 = encrypt base (a.1.toNat : F') r ek := by
  unfold Encrypts scalars at h
  induction as generalizing cts with
  | nil => simp
  | cons a as ih =>
    cases cts with
    | nil => simp
    | cons ct cts =>
      rw [List.map_cons] at h
      cases h with
      | cons hd tl =>
        intro b hb
        rw [List.zip_cons_cons] at hb
        rcases List.mem_cons.mp hb with rfl | hb
        · exact hd
        · exact ih tl b hb

omit [Field S.F] [AddCommGroup S.G] [Module S.F S.G] [AddCommGroup E] [AddCommGroup K] in
/-- C110: a granted credential, committed to with any key, is good for its commitment -/
theorem C110_credential_partial (hI : IdentityLaws W X D) (bl : Nat → CACBlinds F') (usk : F') (c : Credential UInt32 G1 G2) (rand : Randomizer F')
    (h : Granted c.ipk usk c.attrs c.sig) : CredOk W X (D.cred bl usk c rand) (D.sc (comm c.sig rand)) := by
  intro n k j r as hiss hopen hrev
  obtain ⟨x, z, gen1, gen2, y, u, h8, hipk, hg⟩ := h
  have hlen := granted_length ⟨x, z, gen1, gen2, y, u, h8, hipk, hg⟩
  simp only [IdExt.cred, decide_eq_true_eq] at hiss
  obtain ⟨hl, rfl⟩ := getRevealed_ok (show getRevealed c.attrs j.revealMap = .ok as from hrev)
  obtain ⟨r', h1, h2⟩ := Res.bind_eq_ok.mp hopen
  obtain rfl := (Res.ok.inj h2).symm
  have hy : c.ipk.yy2.length = y.length := by rw [hipk]; simp [issuerKeygen]
  obtain ⟨sig, cts, pok, as', e1, e2, e3, e4, e5⟩ := C41_complete_partial D.P D.hash x z gen1 gen2 y usk u (scalars F' c.attrs) j.revealMap rand
    (bl n) k.attrs [] (by simp [scalars, hlen, hy]) (by simp [scalars, hl]) h8
  rw [← hipk] at e1 e2 e3
  obtain rfl := Res.ok.inj (hg.symm.trans e1)
  obtain rfl := Res.ok.inj (h1.symm.trans e2)
  obtain ⟨-, rfl⟩ := getRevealed_ok e4
  unfold scalars at e5
  rw [pick_map] at e5
  refine ⟨by simpa using e5.length_eq, ?_, ?_⟩
  · rw [hI.verify, ← hiss]
    exact e3
  · rw [hI.base]
    exact encrypts_zip e5

/-- C110: With a granted credential the constructor makes an input exactly if every identity policy names the issuer and has a map of the right
length; the input is one for the notes of C109, and the tracer reads the attributes that the issuer certified, at the places of the map. -/
theorem C110_payer_traced_partial [DecidableEq S.G] (hW : WalletLaws W X) (hI : IdentityLaws W X D) (bl : Nat → CACBlinds F') (usk : F')
    (c : Credential UInt32 G1 G2) (rand : Randomizer F') (h : Granted c.ipk usk c.attrs c.sig) (e : Nat → Bytes) (o : OpenAssetRecord S)
    (ps : List (Policy S G1 (RevealPolicy G1 G2))) :
    ((∃ r, W.fromOpenCred (D.cred bl usk c rand) e o ps = .ok r) ↔
      ∀ p ∈ ps, ∀ j, p.identityTracing = some j → j.issuer = c.ipk ∧ j.revealMap.length = c.attrs.length) ∧
    ∀ r, W.fromOpenCred (D.cred bl usk c rand) e o ps = .ok r →
      InputOf W X (fun j as => as = pick c.attrs j.revealMap) o ps (some (D.sc (comm c.sig rand))) r ∧
      ∀ (i : Nat) (p : Policy S G1 (RevealPolicy G1 G2)), ps[i]? = some p → ∀ s sa x, p.keys = (W.generate s sa x).2 →
        ∃ m, r.tracersMemos[i]? = some (W.viewMemo m) ∧ W.decryptMemo m (W.generate s sa x).1 =
          .ok (if p.assetTracing ∧ o.bar.recordType.1 then some o.amount else none,
            if p.assetTracing ∧ o.bar.recordType.2 then some o.assetType else none,
            match p.identityTracing with
            | some j => pick c.attrs j.revealMap
            | none => []) := by
  have hopen : ∀ n k j, j.revealMap.length = c.attrs.length → ∃ r, (D.cred bl usk c rand).openCom n k j = .ok r := by
    intro n k j hl
    simp only [IdExt.cred]
    unfold cacOpen
    rw [if_neg (by simp [scalars, hl])]
    exact ⟨_, rfl⟩
  refine ⟨⟨?_, ?_⟩, ?_⟩
  · rintro ⟨r, hr⟩ p hp j hj
    obtain ⟨l, h1, -⟩ := Res.bind_eq_ok.mp hr
    obtain ⟨b, n, hb⟩ := forall₂_left (loopRes_ok _ _ _ _ h1) hp
    obtain ⟨y, h2, -⟩ := Res.bind_eq_ok.mp hb
    unfold CredExt.identity at h2
    rw [hj] at h2
    simp only at h2
    split at h2
    · cases h2
    · rename_i hiss
      obtain ⟨_, -, h2⟩ := Res.bind_eq_ok.mp h2
      obtain ⟨as, h3, -⟩ := Res.bind_eq_ok.mp h2
      simp only [IdExt.cred, decide_eq_true_eq, not_not] at hiss
      exact ⟨hiss.symm, (getRevealed_ok (show getRevealed c.attrs j.revealMap = .ok as from h3)).1⟩
  · intro hps
    unfold WalletExt.fromOpenCred
    obtain ⟨l, hl⟩ := loopRes_exists (W.inputCredStep (D.cred bl usk c rand) e o) 0 ps (by
      intro p hp n
      unfold WalletExt.inputCredStep CredExt.identity
      cases hj : p.identityTracing with
      | none =>
        obtain ⟨m, hm⟩ := makeMemo_exists hW (e n) p o.bar.recordType.1 o.bar.recordType.2 o []
        simp only [Res.bind_ok]
        rw [hm, Res.bind_ok]
        exact ⟨_, rfl⟩
      | some j =>
        obtain ⟨hi, hlen⟩ := hps p hp j hj
        obtain ⟨r, hr⟩ := hopen n p.keys j hlen
        simp only
        rw [if_neg (by simp [IdExt.cred, hi]), hr, Res.bind_ok,
          show (D.cred bl usk c rand).revealed j = .ok _ from getRevealed_of hlen, Res.bind_ok, Res.pure_eq, Res.bind_ok]
        obtain ⟨m, hm⟩ := makeMemo_exists hW (e n) p o.bar.recordType.1 o.bar.recordType.2 o ((pick c.attrs j.revealMap).zip r.1)
        rw [hm, Res.bind_ok]
        exact ⟨_, rfl⟩)
    rw [hl, Res.bind_ok]
    exact ⟨_, rfl⟩
  · intro r hr
    have hin : InputOf W X (fun j as => as = pick c.attrs j.revealMap) o ps (some (D.sc (comm c.sig rand))) r :=
      .cred _ e ps _ r (C110_credential_partial hI bl usk c rand h) (fun j as ha => (getRevealed_ok ha).2) hr
    refine ⟨hin, fun i p hp s sa x hk => ?_⟩
    obtain ⟨m, as, h1, h2, h3⟩ := C109_traced hW _ o ps _ r (.inl hin) i p hp s sa x hk
    refine ⟨m, h1, ?_⟩
    rw [h2]
    cases hj : p.identityTracing <;> rw [hj] at h3 <;> simp only at h3 ⊢ <;> rw [h3]

/-- C110: The same for outputs, if the policies name the issuer (which the constructor does not look at: `C109_foreign_issuer_violated`). -/
theorem C110_payee_traced_partial [DecidableEq S.G] (hW : WalletLaws W X) (hI : IdentityLaws W X D) (bl : Nat → CACBlinds F') (usk : F')
    (c : Credential UInt32 G1 G2) (rand : Randomizer F') (h : Granted c.ipk usk c.attrs c.sig) (s : Nat) (hs : W.GoodRand s) (rnd : EncRand)
    (e : Nat → Bytes) (t : FullTemplate S G1 (RevealPolicy G1 G2)) (sk : SecKey W.toKeyPrims) (hk : ∀ k, sk ≠ .address k)
    (hpk : W.pkView t.publicKey = W.pubOf W.addr sk) (hg : ∀ key msg, ∃ c, W.gcmEnc key msg = some c)
    (hps : ∀ p ∈ t.policies, ∀ j, p.identityTracing = some j → j.issuer = c.ipk) :
    ((∃ r, W.fromTemplateCred X (D.cred bl usk c rand) s rnd e t = .ok r) ↔
      ∀ p ∈ t.policies, ∀ j, p.identityTracing = some j → j.revealMap.length = c.attrs.length) ∧
    ∀ r, W.fromTemplateCred X (D.cred bl usk c rand) s rnd e t = .ok r →
      OutputOf W X (fun j as => as = pick c.attrs j.revealMap) t (some (D.sc (comm c.sig rand))) r ∧
      ∀ (i : Nat) (p : Policy S G1 (RevealPolicy G1 G2)), t.policies[i]? = some p → ∀ s sa x, p.keys = (W.generate s sa x).2 →
        ∃ m, r.tracersMemos[i]? = some (W.viewMemo m) ∧ W.decryptMemo m (W.generate s sa x).1 =
          .ok (if p.assetTracing ∧ r.oar.bar.recordType.1 then some r.oar.amount else none,
            if p.assetTracing ∧ r.oar.bar.recordType.2 then some r.oar.assetType else none,
            match p.identityTracing with
            | some j => pick c.attrs j.revealMap
            | none => []) := by
  refine ⟨⟨?_, ?_⟩, ?_⟩
  · rintro ⟨r, hr⟩ p hp j hj
    obtain ⟨l, h1, -⟩ := Res.bind_eq_ok.mp hr
    obtain ⟨b, n, hb⟩ := forall₂_left (loopRes_ok _ _ _ _ h1) hp
    unfold outputCredStep at hb
    rw [hj] at hb
    obtain ⟨_, -, hb⟩ := Res.bind_eq_ok.mp hb
    obtain ⟨as, h3, -⟩ := Res.bind_eq_ok.mp hb
    exact (getRevealed_ok (show getRevealed c.attrs j.revealMap = .ok as from h3)).1
  · intro hl
    obtain ⟨o, -, -⟩ := C20_build_succeeds_partial W.toRecExt hW.records X W.addr s rnd t.toTemplate sk hk hpk hg
    refine (C109_made hW e o [] (D.cred bl usk c rand) s rnd t sk hk hpk hg).2.2.2 fun p hp j hj => ?_
    have hl := hl p hp j hj
    refine ⟨⟨_, getRevealed_of hl⟩, fun n => ?_⟩
    simp only [IdExt.cred]
    unfold cacOpen
    rw [if_neg (by simp [scalars, hl])]
    exact ⟨_, rfl⟩
  · intro r hr
    have hout : OutputOf W X (fun j as => as = pick c.attrs j.revealMap) t (some (D.sc (comm c.sig rand))) r :=
      .cred _ s rnd e _ r hs (C110_credential_partial hI bl usk c rand h) (fun j as ha => (getRevealed_ok ha).2)
        (fun p hp j hj => decide_eq_true (hps p hp j hj).symm) hr
    refine ⟨hout, fun i p hp s sa x hk => ?_⟩
    obtain ⟨m, as, h1, h2, h3⟩ := C109_traced hW _ r.oar t.policies _ r (.inr ⟨t, rfl, hout, rfl⟩) i p hp s sa x hk
    refine ⟨m, h1, ?_⟩
    rw [h2]
    cases hj : p.identityTracing <;> rw [hj] at h3 <;> simp only at h3 ⊢ <;> rw [h3]

omit [Field S.F] [AddCommGroup S.G] [Module S.F S.G] [AddCommGroup E] [AddCommGroup K] in
/-- C110 fails for the commitment of two identity elements (`ACCommitment::default()`): someone to whom the issuer granted nothing, with any
attributes of their choice, has openings of it for every policy of the issuer that are as good as those of a granted credential. -/
theorem C110_default_commitment_violated (hI : IdentityLaws W X D) (ipk : IssuerPK G1 G2) (h8 : ipk.yy2.length < 796) (attrs : List UInt32)
    (hl : attrs.length = ipk.yy2.length) : ∃ C : CredExt S G1 (RevealPolicy G1 G2), CredOk W X C (D.sc AnonCreds.Sig.default) ∧
      ∀ j, (C.issuerIs j = true ↔ j.issuer = ipk) ∧ C.revealed j = getRevealed attrs j.revealMap ∧
        (j.revealMap.length = attrs.length → ∀ n k, ∃ x, C.openCom n k j = .ok x) := by
  have hall : ∀ (k : EncKeys S.G G1) (j : RevealPolicy G1 G2), ∃ x : List (Ct G1) × CACPoK F' G1 G2, j.revealMap.length = attrs.length →
      Encrypts D.P.base1 k.attrs x.1 (scalars F' (pick attrs j.revealMap)) ∧
      cacVerify D.P multiExpDefault D.hash ipk k.attrs j.revealMap AnonCreds.Sig.default x.1 x.2 [] = .ok () := by
    intro k j
    by_cases h : j.revealMap.length = attrs.length
    · obtain ⟨cts, pok, as, h1, h2, h3⟩ := C41_identity_commitment_accepted D.P D.hash ipk (scalars F' attrs) j.revealMap k.attrs []
        ⟨fun _ => 0, 0, 0, fun _ => 0, fun _ => 0⟩ (by simp [scalars, hl]) (by simp [scalars, h]) h8
      obtain ⟨-, rfl⟩ := getRevealed_ok h1
      refine ⟨(cts, pok), fun _ => ⟨?_, h3⟩⟩
      unfold scalars at h2 ⊢
      rwa [pick_map] at h2
    · exact ⟨([], ⟨⟨0, 0, 0, []⟩, [], []⟩), fun h' => absurd h' h⟩
  choose f hf using hall
  refine ⟨⟨fun j => decide (j.issuer = ipk), fun _ k j => .ok ((f k j).1, D.ipf (f k j).2), fun j => getRevealed attrs j.revealMap⟩, ?_, fun j =>
    ⟨by simp, rfl, fun _ n k => ⟨_, rfl⟩⟩⟩
  intro n k j r as hiss hopen hrev
  obtain rfl := Res.ok.inj hopen
  obtain ⟨hlen, rfl⟩ := getRevealed_ok (show getRevealed attrs j.revealMap = .ok as from hrev)
  obtain ⟨h1, h2⟩ := hf k j hlen
  refine ⟨by simpa [scalars] using h1.length_eq, ?_, ?_⟩
  · rw [hI.verify, of_decide_eq_true hiss]
    exact h2
  · rw [hI.base]
    exact encrypts_zip h1

omit [DecidableEq G2] in
/-- the common part of the two theorems that follow -/
theorem accountable [DecidableEq S.G] {X' : Ext S} {H' : Tr G1 G2 → F'} (hI : IdentityLaws W X D) (hI' : IdentityLaws W X' { D with hash := H' })
    (hb0 : D.P.base1 ≠ 0) {pols : List (List (TracingPolicy S))} {memos : List (List (TracerMemo S))} {proofs proofs' : List (List (Option S.IPf))}
    {sigs : List (Option S.SC)} (h : IdentitiesTraced X.acVerify pols memos proofs sigs) (h' : IdentitiesTraced X'.acVerify pols memos proofs' sigs)
    (i n : Nat) (ps : List (Policy S G1 (RevealPolicy G1 G2))) (p : Policy S G1 (RevealPolicy G1 G2)) (j : RevealPolicy G1 G2)
    (ms : List (TracerMemo S)) (m : FullMemo S.G G1) (cm : AnonCreds.Sig G1) (pok pok' : CACPoK F' G1 G2)
    (hps : pols[i]? = some (ps.map W.viewPolicy)) (hp : ps[n]? = some p) (hj : p.identityTracing = some j) (hms : memos[i]? = some ms)
    (hm : ms[n]? = some (W.viewMemo m)) (hcm : sigs[i]? = some (some (D.sc cm))) (hcm0 : cm.sigma1 ≠ 0)
    (hq : ∃ qs, proofs[i]? = some qs ∧ qs[n]? = some (some (D.ipf pok))) (hq' : ∃ qs, proofs'[i]? = some qs ∧ qs[n]? = some (some (D.ipf pok')))
    (hb : pok'.pok.blinding = pok.pok.blinding) (hbc : pok'.cmCt = pok.cmCt)
    (hc : D.hash (cacPoint D.P j.issuer p.keys.attrs cm m.lockAttrs [] pok.cmCt pok.pok.blinding) ≠
      H' (cacPoint D.P j.issuer p.keys.attrs cm m.lockAttrs [] pok.cmCt pok.pok.blinding)) :
    let c := D.hash (cacPoint D.P j.issuer p.keys.attrs cm m.lockAttrs [] pok.cmCt pok.pok.blinding)
    let c' := H' (cacPoint D.P j.issuer p.keys.attrs cm m.lockAttrs [] pok.cmCt pok.pok.blinding)
    let xs := extracted j.issuer.yy2.length c c' pok.pok pok'.pok
    ValidSig D.P j.issuer (extractSig cm pok.pok pok'.pok c c') ((pok.pok.responseSk - pok'.pok.responseSk) / (c - c')) xs ∧
    ∀ s sa x, p.keys = (W.generate s sa x).2 → ∀ a t attrs, W.decryptMemo m (W.generate s sa x).1 = .ok (a, t, attrs) →
      getRevealed xs j.revealMap = .ok (scalars F' attrs) := by
  intro c c' xs
  have hview : (ps.map W.viewPolicy)[n]? = some (W.viewPolicy p) := by rw [List.getElem?_map, hp]; rfl
  have get : ∀ (Y : Ext S) (pf : List (List (Option S.IPf))) (k : CACPoK F' G1 G2), IdentitiesTraced Y.acVerify pols memos pf sigs →
      (∃ qs, pf[i]? = some qs ∧ qs[n]? = some (some (D.ipf k))) →
      Y.acVerify (W.ip p.keys j) (D.sc cm) (m.lockAttrs.map W.act) (D.ipf k) = true := by
    rintro Y pf k hY ⟨qs, hqs, hqn⟩
    obtain ⟨ms', m', qs', q', sc', e1, e2, e3, e4, e5, -, -, e6⟩ := hY i n _ _ hps hview
    obtain rfl := Option.some.inj (hms.symm.trans e1)
    obtain rfl := Option.some.inj (hm.symm.trans e2)
    obtain rfl := Option.some.inj (hqs.symm.trans e3)
    obtain rfl := Option.some.inj (hqn.symm.trans e4)
    obtain rfl := Option.some.inj (hcm.symm.trans e5)
    simp only [WalletExt.viewPolicy, hj, Option.map_some] at e6
    obtain ⟨c, pf, h1, h2, h3⟩ := e6
    obtain rfl := Option.some.inj h1
    obtain rfl := Option.some.inj h2
    exact h3
  have v := (hI.verify _ _ _ _ _).mp (get X proofs pok h hq)
  have v' := (hI'.verify _ _ _ _ _).mp (get X' proofs' pok' h' hq')
  obtain ⟨h1, as, h2, h3⟩ := C41_special_sound_partial D.P D.hash H' j.issuer p.keys.attrs j.revealMap cm m.lockAttrs pok pok' [] hcm0 hb hbc hc v v'
  refine ⟨h1, fun s sa x hk a t attrs hd => ?_⟩
  have hdec := (C21_decrypt_consistent W.toTraceExt m _ a t attrs hd).2.2
  have hk' : p.keys.attrs = (keyGen D.P.base1 sa).2 := by rw [hk, ← hI.base]; rfl
  rw [hk'] at h3
  have hx := C41_decrypts D.P.base1 sa _ _ h3
  rw [show (W.generate s sa x).1.attrs = sa from rfl] at hdec
  rw [show W.toTraceExt.hBase = D.P.base1 from hI.base, hx] at hdec
  refine h2.trans (congrArg _ ?_)
  unfold scalars
  clear h2 h3 hx hd
  induction as generalizing attrs with
  | nil => cases attrs with
    | nil => rfl
    | cons => simp at hdec
  | cons a as ih => cases attrs with
    | nil => simp at hdec
    | cons b attrs =>
      simp only [List.map_cons, List.cons.injEq] at hdec ⊢
      exact ⟨smul_left_injective F' hb0 hdec.1, ih attrs hdec.2⟩

variable [DecidableEq S.CG] [DecidableEq S.AT] [DecidableEq S.EK]

omit [DecidableEq G2] in
/-- C110: Whatever prover makes a note that is accepted for a policy on an input, also for a second answer of the transcript hash, holds a valid
signature of the issuer of the policy, computed from the two notes; and what the tracer reads from the memo are the attributes of that signature,
at the places of the map of the policy. -/
theorem C110_payer_accountable_partial [DecidableEq S.G] {X' : Ext S} {H' : Tr G1 G2 → F'} (hI : IdentityLaws W X D) (hI' : IdentityLaws W X' { D with hash := H' })
    (hb0 : D.P.base1 ≠ 0) (note note' : XfrNote S) (pol : Policies S) (h : X.verifyNote note pol = some ()) (h' : X'.verifyNote note' pol = some ())
    (hsame : note'.body.tracingMemos = note.body.tracingMemos ∧ note'.body.inputs = note.body.inputs)
    (i n : Nat) (ps : List (Policy S G1 (RevealPolicy G1 G2))) (p : Policy S G1 (RevealPolicy G1 G2)) (j : RevealPolicy G1 G2)
    (ms : List (TracerMemo S)) (m : FullMemo S.G G1) (cm : AnonCreds.Sig G1) (pok pok' : CACPoK F' G1 G2)
    (hps : pol.inputsPolicies[i]? = some (ps.map W.viewPolicy)) (hp : ps[n]? = some p) (hj : p.identityTracing = some j)
    (hms : note.body.tracingMemos[i]? = some ms) (hm : ms[n]? = some (W.viewMemo m))
    (hcm : pol.inputsSigComs[i]? = some (some (D.sc cm))) (hcm0 : cm.sigma1 ≠ 0)
    (hq : ∃ qs, note.body.inputsIdentityProofs[i]? = some qs ∧ qs[n]? = some (some (D.ipf pok)))
    (hq' : ∃ qs, note'.body.inputsIdentityProofs[i]? = some qs ∧ qs[n]? = some (some (D.ipf pok')))
    (hb : pok'.pok.blinding = pok.pok.blinding) (hbc : pok'.cmCt = pok.cmCt)
    (hc : D.hash (cacPoint D.P j.issuer p.keys.attrs cm m.lockAttrs [] pok.cmCt pok.pok.blinding) ≠
      H' (cacPoint D.P j.issuer p.keys.attrs cm m.lockAttrs [] pok.cmCt pok.pok.blinding)) :
    let c := D.hash (cacPoint D.P j.issuer p.keys.attrs cm m.lockAttrs [] pok.cmCt pok.pok.blinding)
    let c' := H' (cacPoint D.P j.issuer p.keys.attrs cm m.lockAttrs [] pok.cmCt pok.pok.blinding)
    let xs := extracted j.issuer.yy2.length c c' pok.pok pok'.pok
    ValidSig D.P j.issuer (extractSig cm pok.pok pok'.pok c c') ((pok.pok.responseSk - pok'.pok.responseSk) / (c - c')) xs ∧
    ∀ s sa x, p.keys = (W.generate s sa x).2 → ∀ a t attrs, W.decryptMemo m (W.generate s sa x).1 = .ok (a, t, attrs) →
      getRevealed xs j.revealMap = .ok (scalars F' attrs) := by
  have h1 := (C25_accepted_identities X note pol h).1
  have h2 := (C25_accepted_identities X' note' pol h').1
  rw [hsame.1, hsame.2] at h2
  refine accountable hI hI' hb0 h1 h2 i n ps p j ms m cm pok pok' hps hp hj ?_ hm hcm hcm0 hq hq' hb hbc hc
  obtain ⟨ms', _, _, _, _, e1, -⟩ := h1 i n _ (W.viewPolicy p) hps (by rw [List.getElem?_map, hp]; rfl)
  rw [e1]
  rw [List.getElem?_take] at e1
  split at e1
  · exact e1.symm.trans hms
  · cases e1

omit [DecidableEq G2] in
/-- C110: the same for a policy on an output -/
theorem C110_payee_accountable_partial [DecidableEq S.G] {X' : Ext S} {H' : Tr G1 G2 → F'} (hI : IdentityLaws W X D) (hI' : IdentityLaws W X' { D with hash := H' })
    (hb0 : D.P.base1 ≠ 0) (note note' : XfrNote S) (pol : Policies S) (h : X.verifyNote note pol = some ()) (h' : X'.verifyNote note' pol = some ())
    (hsame : note'.body.tracingMemos = note.body.tracingMemos ∧ note'.body.inputs = note.body.inputs)
    (i n : Nat) (ps : List (Policy S G1 (RevealPolicy G1 G2))) (p : Policy S G1 (RevealPolicy G1 G2)) (j : RevealPolicy G1 G2)
    (ms : List (TracerMemo S)) (m : FullMemo S.G G1) (cm : AnonCreds.Sig G1) (pok pok' : CACPoK F' G1 G2)
    (hps : pol.outputsPolicies[i]? = some (ps.map W.viewPolicy)) (hp : ps[n]? = some p) (hj : p.identityTracing = some j)
    (hms : note.body.tracingMemos[note.body.inputs.length + i]? = some ms) (hm : ms[n]? = some (W.viewMemo m))
    (hcm : pol.outputsSigComs[i]? = some (some (D.sc cm))) (hcm0 : cm.sigma1 ≠ 0)
    (hq : ∃ qs, note.body.outputsIdentityProofs[i]? = some qs ∧ qs[n]? = some (some (D.ipf pok)))
    (hq' : ∃ qs, note'.body.outputsIdentityProofs[i]? = some qs ∧ qs[n]? = some (some (D.ipf pok')))
    (hb : pok'.pok.blinding = pok.pok.blinding) (hbc : pok'.cmCt = pok.cmCt)
    (hc : D.hash (cacPoint D.P j.issuer p.keys.attrs cm m.lockAttrs [] pok.cmCt pok.pok.blinding) ≠
      H' (cacPoint D.P j.issuer p.keys.attrs cm m.lockAttrs [] pok.cmCt pok.pok.blinding)) :
    let c := D.hash (cacPoint D.P j.issuer p.keys.attrs cm m.lockAttrs [] pok.cmCt pok.pok.blinding)
    let c' := H' (cacPoint D.P j.issuer p.keys.attrs cm m.lockAttrs [] pok.cmCt pok.pok.blinding)
    let xs := extracted j.issuer.yy2.length c c' pok.pok pok'.pok
    ValidSig D.P j.issuer (extractSig cm pok.pok pok'.pok c c') ((pok.pok.responseSk - pok'.pok.responseSk) / (c - c')) xs ∧
    ∀ s sa x, p.keys = (W.generate s sa x).2 → ∀ a t attrs, W.decryptMemo m (W.generate s sa x).1 = .ok (a, t, attrs) →
      getRevealed xs j.revealMap = .ok (scalars F' attrs) := by
  have h1 := (C25_accepted_identities X note pol h).2
  have h2 := (C25_accepted_identities X' note' pol h').2
  rw [hsame.1, hsame.2] at h2
  refine accountable hI hI' hb0 h1 h2 i n ps p j ms m cm pok pok' hps hp hj ?_ hm hcm hcm0 hq hq' hb hbc hc
  rw [List.getElem?_drop]
  exact hms

end

end Verif.Xfr
