import Verif.Xfr.Inputs

/-!
C109 on a concrete setting, and the constructor that does not look at the issuer.
-/

namespace Verif.Xfr

open ElGamal Spec

@[reducible] def walT : Types :=
  { toyT with
    AT := Fix 32
    PK := PubKey toyKeys
    EK := ℚ × ℚ
    Ct := Ct (ℚ × ℚ)
    IP := ℚ × Nat
    ACt := Ct ℚ
    IPf := Nat × ℚ
    SC := Nat
    OM := OwnerMemo
    KP := SecKey toyKeys
    Sg := Bytes × Bytes }

def walAddr : toyKeys.ScPK → Addr := fun _ => ⟨List.replicate 20 0, rfl⟩

def walBytes : PubKey toyKeys → Bytes
  | .ed25519 k => 0 :: Subtype.val (p := fun b : Bytes => b.length = 32) k
  | .secp256k1 k => 1 :: Subtype.val (p := fun b : Bytes => b.length = 33) k
  | .address a => 2 :: a.1

theorem walBytes_inj (a b : PubKey toyKeys) (h : walBytes a = walBytes b) : a = b := by
  cases a <;> cases b <;> simp only [walBytes, List.cons.injEq] at h
  · exact congrArg _ (Subtype.ext h.2)
  · exact absurd h.1 (by decide)
  · exact absurd h.1 (by decide)
  · exact absurd h.1 (by decide)
  · exact congrArg _ (Subtype.ext h.2)
  · exact absurd h.1 (by decide)
  · exact absurd h.1 (by decide)
  · exact absurd h.1 (by decide)
  · exact congrArg _ (Subtype.ext h.2)

instance : DecidableEq (PubKey toyKeys) := fun a b => decidable_of_iff (walBytes a = walBytes b) ⟨walBytes_inj a b, congrArg _⟩

/-- `toyM` with these keys; a credential proof is the name of its issuer with the key of the ciphertexts -/
@[reducible] def walE : Ext walT where
  decompress := some
  compress := id
  identityC := (0, 0)
  B := (1, 0)
  Bb := (0, 1)
  asScalar := fun t => (ofLE t.1 : ℚ)
  proveRanges := toyM.proveRanges
  batchRanges := toyM.batchRanges
  proveAsset := toyM.proveAsset
  batchAsset := toyM.batchAsset
  proveMix := toyM.proveMix
  batchMix := toyM.batchMix
  provePeg := fun _ _ _ _ _ => ()
  batchPeg := fun l => l.all (fun e => e.2.1 == e.2.2.1.map (fun c => encrypt (1, 0) c.1 c.2 e.1))
  acVerify := fun ip _ _ pf => ip.2 == pf.1 && ip.1 == pf.2
  ser := fun b => some [UInt8.ofNat b.inputs.length, UInt8.ofNat b.outputs.length]
  pkBytes := walBytes
  sigVerify := fun pk m s => s == (walBytes pk, m)
  kpPub := toyPrims.pubOf walAddr
  kpSign := fun k m => some (walBytes (toyPrims.pubOf walAddr k), m)

@[reducible] def walW : WalletExt walT ℚ ℚ (ZMod 97) (ZMod 101) Nat where
  toMemoPrims := toyPrims
  kOrder := 2 ^ 256
  hashScalar := fun b l => (ofLE b + l.length : ℚ)
  atBytes := fun t => t.1
  atOf := fun b => if h : b.length = 32 then ⟨b, h⟩ else ⟨List.replicate 32 0, rfl⟩
  pkView := id
  gBase := (1, 0)
  hBase := 1
  asScalar := fun t => (ofLE t.1 : ℚ)
  ek := id
  ct := id
  act := id
  hBytes := fun _ => []
  enc := fun k m r => encrypt (1, 0) m r k
  om := id
  omOf := id
  secOf := id
  addr := walAddr
  ip := fun k j => (k.attrs, j)

theorem walW_laws : WalletLaws walW walE where
  records := ⟨toyPrims_laws, le_refl _, recR_laws.scNum_lt, fun t => t.2, fun t => by simp [t.2]⟩
  scalar := fun _ => rfl
  enc := fun _ _ _ => rfl
  om := fun _ => rfl
  kp := fun _ => rfl

theorem walE_provers : Provers walE := ⟨toyM_provers.ranges, toyM_provers.asset, toyM_provers.mix, toyM_provers.mixRefused⟩
theorem walE_encoding : Encoding walE := ⟨fun _ => rfl, fun c g h => by simpa using h.symm, rfl⟩
theorem walE_complete : Complete walE := ⟨toyM_complete.ranges, toyM_complete.asset, toyM_complete.mix⟩
theorem walE_batching : Batching walE := ⟨toyM_batching.ranges, toyM_batching.asset, toyM_batching.mix, fun l => by simp⟩
theorem walE_peg : PegComplete walW.enc walE := by
  intro k l
  simp

/-- a credential of the issuer `n` with the attributes 30 and 40 -/
def walCred (n : Nat) : CredExt walT ℚ Nat where
  issuerIs := fun ip => ip == n
  openCom := fun _ k _ => .ok ([encrypt (F := ℚ) (G := ℚ) 1 30 5 k.attrs, encrypt (F := ℚ) (G := ℚ) 1 40 6 k.attrs], n, k.attrs)
  revealed := fun _ => .ok [30, 40]

theorem walCred_ok (n sc : Nat) : CredOk walW walE (walCred n) sc := by
  intro _ k ip c attrs hi hc ha
  simp only [walCred, beq_iff_eq, Res.ok.injEq] at hi hc ha
  subst hc ha hi
  refine ⟨rfl, by simp, ?_⟩
  intro a ha
  simp only [List.zip_cons_cons, List.zip_nil_right, List.mem_cons, List.not_mem_nil, or_false] at ha
  rcases ha with rfl | rfl
  exacts [⟨5, rfl⟩, ⟨6, rfl⟩]

def walAlice : SecKey toyKeys := .ed25519 (⟨List.replicate 32 9, rfl⟩ : Fix 32)
def walBob : SecKey toyKeys := .secp256k1 (⟨List.replicate 32 4, rfl⟩ : Fix 32)
def walType : Fix 32 := ⟨List.replicate 32 7, rfl⟩
def walRnd : EncRand := ⟨List.replicate 32 9, 12⟩

/-- the keys of two tracers, and the policies of the asset for inputs and for outputs: the first tracer reads amounts and types, the second
the identity of the payer as issuer 7 knows it -/
def walKeys (s : ℚ) : DecKeys ℚ ℚ × EncKeys (ℚ × ℚ) ℚ := walW.generate s 4 (List.replicate 32 9)
def walAsset : Policy walT ℚ Nat := ⟨(walKeys 3).2, true, none⟩
def walIdentity : Policy walT ℚ Nat := ⟨(walKeys 5).2, false, some (7 : Nat)⟩

def walOut (k : SecKey toyKeys) (a : UInt64) (ps : List (Policy walT ℚ Nat)) : FullTemplate walT ℚ Nat :=
  { amount := a, assetType := walType, confAmount := true, confType := true, publicKey := toyPrims.pubOf walAddr k, policies := ps }

/-- A hidden record of `2^40 + 5` units that Alice was sent is spent under both policies: `2^40` units to Bob, the rest as change.  The note is
accepted, Bob has the units from the note and his key alone, the first tracer reads the hidden amount and type of what Bob has, and the second
the attributes of the payer. -/
example : ∃ (bar : BlindAssetRecord walT) (memo : Option OwnerMemo) (r o1 o2 : AssetRecord walT) (note : XfrNote walT),
    AddressedTo walW walE walAlice bar memo r.oar ∧ walW.fromOpenCred (walCred 7) (fun _ => [1]) r.oar [walAsset, walIdentity] = .ok r ∧
    walW.fromTemplate walE 12 walRnd (fun _ => [1]) (walOut walBob (2 ^ 40) [walAsset]) = .ok o1 ∧
    walW.fromTemplate walE 13 walRnd (fun _ => [2]) (walOut walAlice 5 []) = .ok o2 ∧
    walE.genNote [r] [o1, o2] [walAlice] = some note ∧
    walE.verifyNote note ⟨true, [[walW.viewPolicy walAsset, walW.viewPolicy walIdentity]], [some 77], [[walW.viewPolicy walAsset], []],
      [none, none]⟩ = some () ∧
    (∃ bar' memo' op, note.body.outputs[0]? = some bar' ∧ note.body.ownersMemos[0]? = some memo' ∧ walW.receive walBob bar' memo' = .ok op ∧
      op.amount = 2 ^ 40 ∧ op.assetType = walType) ∧
    (∃ m, (note.body.tracingMemos[1]?.bind (·[0]?)) = some (walW.viewMemo m) ∧
      walW.decryptMemo m (walKeys 3).1 = .ok (some (2 ^ 40), some walType, [])) ∧
    ∃ m, (note.body.tracingMemos[0]?.bind (·[1]?)) = some (walW.viewMemo m) ∧ walW.decryptMemo m (walKeys 5).1 = .ok (none, none, [30, 40]) := by
  have hgcm : ∀ key msg, ∃ c, walW.gcmEnc key msg = some c := fun _ _ => ⟨_, rfl⟩
  have hA : ∀ k, walAlice ≠ .address k := fun k h => by cases h
  have hB : ∀ k, walBob ≠ .address k := fun k h => by cases h
  have g12 : walW.GoodRand 12 := ⟨by norm_num, by norm_num⟩
  have g13 : walW.GoodRand 13 := ⟨by norm_num, by norm_num⟩
  -- what Alice was sent
  obtain ⟨o, m, ho⟩ := C20_build_succeeds_partial walW.toRecExt walW_laws.records walE walAddr 12 walRnd (walOut walAlice (2 ^ 40 + 5) []).toTemplate
    walAlice hA rfl hgcm
  have hadd : AddressedTo walW walE walAlice o.bar (m.map walW.om) o := ⟨12, walRnd, _, m, g12, rfl, ho, rfl, rfl⟩
  obtain ⟨f1, f2, f3, -⟩ := build_facts _ _ _ _ _ ho
  have hrec := (C109_received walW_laws walE_encoding _ _ _ _ hadd).1
  -- the input and the outputs
  obtain ⟨-, hin, -, -⟩ := C109_made walW_laws (fun _ => [1]) o [walAsset, walIdentity] (walCred 7) 12 walRnd (walOut walAlice 0 []) walAlice hA rfl hgcm
  obtain ⟨r, hr⟩ := hin (by
    intro p hp ip hi
    simp only [List.mem_cons, List.not_mem_nil, or_false] at hp
    rcases hp with rfl | rfl
    · cases hi
    · obtain rfl := Option.some.inj hi
      exact ⟨rfl, ⟨_, rfl⟩, fun n => ⟨_, rfl⟩⟩)
  obtain ⟨o1, h1⟩ := (C109_made walW_laws (fun _ => [1]) o [] (walCred 7) 12 walRnd (walOut walBob (2 ^ 40) [walAsset]) walBob hB rfl hgcm).2.2.1.mpr (by
    intro p hp
    obtain rfl := List.mem_singleton.mp hp
    rfl)
  obtain ⟨o2, h2⟩ := (C109_made walW_laws (fun _ => [2]) o [] (walCred 7) 13 walRnd (walOut walAlice 5 []) walAlice hA rfl hgcm).2.2.1.mpr (by simp [walOut])
  let rev : Nat → List UInt32 → Prop := fun _ a => a = [30, 40]
  have i1 : InputOf walW walE rev o [walAsset, walIdentity] (some 77) r := .cred (walCred 7) _ _ 77 r (walCred_ok 7 77) (fun _ a h => (Res.ok.inj h).symm) hr
  have t1 : OutputOf walW walE rev (walOut walBob (2 ^ 40) [walAsset]) none o1 := .plain _ _ _ _ _ g12 h1
  have t2 : OutputOf walW walE rev (walOut walAlice 5 []) none o2 := .plain _ _ _ _ _ g13 h2
  have e0 := (C109_input walW_laws rev _ _ _ _ i1).1
  obtain ⟨a1, a2, -, a4, -⟩ := C109_output walW_laws walE_encoding rev _ _ _ t1
  obtain ⟨b1, b2, -, b4, -⟩ := C109_output walW_laws walE_encoding rev _ _ _ t2
  have hsingle : ¬ MultiAsset (([r] : List (AssetRecord walT)) ++ [o1, o2]) := by
    rintro ⟨x, hx, y, hy, hne⟩
    have : ∀ z ∈ ([r] : List (AssetRecord walT)) ++ [o1, o2], z.oar.assetType = walType := by
      intro z hz
      simp only [List.cons_append, List.nil_append, List.mem_cons, List.not_mem_nil, or_false] at hz
      rcases hz with rfl | rfl | rfl
      · rw [e0]; exact f3
      · exact a2
      · exact b2
    exact hne ((this x hx).trans (this y hy).symm)
  have n1 : r.oar.amount = 2 ^ 40 + 5 := by rw [e0]; exact f2
  have n0 : r.oar.assetType = walType := by rw [e0]; exact f3
  obtain ⟨note, c1, c2, -, c3, c4⟩ := C109_spend walW_laws walE_provers walE_encoding walE_complete walE_batching walE_peg walBytes_inj (fun _ => rfl)
    (fun k m => ⟨_, rfl, by simp⟩) rev [⟨walAlice, o.bar, m.map walW.om, [walAsset, walIdentity], some 77, r⟩]
    [⟨walOut walBob (2 ^ 40) [walAsset], none, o1⟩, ⟨walOut walAlice 5 [], none, o2⟩]
    (by
      intro i hi
      obtain rfl := List.mem_singleton.mp hi
      exact ⟨⟨o, hadd⟩, o, hrec, i1⟩)
    (by
      intro x hx
      simp only [List.mem_cons, List.not_mem_nil, or_false] at hx
      rcases hx with rfl | rfl
      exacts [t1, t2]) (by simp)
    (by
      intro t
      simp only [List.map_cons, List.map_nil, openTotal, List.sum_cons, List.sum_nil, n0, n1]
      rw [a2, b2, a1, b1]
      by_cases h : walType = t
      · subst h
        simp only [walOut, if_true]
        decide
      · simp [walOut, h])
    ⟨fun _ _ => ⟨by simp, by
      simp only [List.map_cons, List.map_nil, amountSum, List.sum_cons, List.sum_nil, n1]
      decide⟩, fun _ _ => by simp, fun h => absurd h hsingle⟩
  obtain ⟨bar', memo', op, d1, d2, d3, d4, -, d5⟩ := c4 0 _ rfl
  obtain ⟨m1, at1, u1, u2, u3⟩ := C109_traced walW_laws rev o1.oar [walAsset] none o1 (.inr ⟨_, rfl, t1, rfl⟩) 0 walAsset rfl 3 4 (List.replicate 32 9) rfl
  obtain ⟨m2, at2, v1, v2, v3⟩ := C109_traced walW_laws rev o _ _ r (.inl i1) 1 walIdentity rfl 5 4 (List.replicate 32 9) rfl
  refine ⟨o.bar, m.map walW.om, r, o1, o2, note, by rw [e0]; exact hadd, by rw [e0]; exact hr, h1, h2, c1, c2,
    ⟨bar', memo', op, d1, d2, (C109_received walW_laws walE_encoding walBob _ _ _ (d5 walBob rfl)).1, d3, d4⟩, ⟨m1, ?_, ?_⟩, m2, ?_, ?_⟩
  · rw [c3]
    simpa using u1
  · rw [show at1 = [] from u3] at u2
    rw [a4, a1, a2] at u2
    exact u2
  · rw [c3]
    simpa using v1
  · rw [show at2 = [30, 40] from v3] at v2
    exact v2

/-- C109 fails for outputs with a credential of a foreign issuer: `from_template_with_identity_tracing` does not look at the issuer (the
constructor for inputs does, asset_record.rs:188-190, and answers with an error), the record and the note are made, and every verifier that
holds the policy refuses the note, whatever commitment is given to it. -/
theorem C109_foreign_issuer_violated : ∃ (o : OpenAssetRecord walT) (memo : Option OwnerMemo) (r : AssetRecord walT) (note : XfrNote walT),
    AddressedTo walW walE walAlice o.bar memo o ∧ (∀ sc, CredOk walW walE (walCred 8) sc) ∧
    walW.fromOpenCred (walCred 8) (fun _ => [1]) o [walIdentity] = .err ∧
    walW.fromTemplateCred walE (walCred 8) 12 walRnd (fun _ => [1]) (walOut walBob (2 ^ 40) [walIdentity]) = .ok r ∧
    walE.genNote [fromOpen o] [r] [walAlice] = some note ∧
    ∀ v ps scs scs', walE.verifyNote note ⟨v, ps, scs, [[walW.viewPolicy walIdentity]], scs'⟩ ≠ some () := by
  have hgcm : ∀ key msg, ∃ c, walW.gcmEnc key msg = some c := fun _ _ => ⟨_, rfl⟩
  have hA : ∀ k, walAlice ≠ .address k := fun k h => by cases h
  have hB : ∀ k, walBob ≠ .address k := fun k h => by cases h
  have g12 : walW.GoodRand 12 := ⟨by norm_num, by norm_num⟩
  obtain ⟨o, m, ho⟩ := C20_build_succeeds_partial walW.toRecExt walW_laws.records walE walAddr 12 walRnd (walOut walAlice (2 ^ 40) []).toTemplate
    walAlice hA rfl hgcm
  obtain ⟨b, m', hb⟩ := C20_build_succeeds_partial walW.toRecExt walW_laws.records walE walAddr 12 walRnd (walOut walBob (2 ^ 40) []).toTemplate
    walBob hB rfl hgcm
  have hadd : AddressedTo walW walE walAlice o.bar (m.map walW.om) o := ⟨12, walRnd, _, m, g12, rfl, ho, rfl, rfl⟩
  have haddb : AddressedTo walW walE walBob b.bar (m'.map walW.om) b := ⟨12, walRnd, _, m', g12, rfl, hb, rfl, rfl⟩
  obtain ⟨-, f2, f3, -⟩ := build_facts _ _ _ _ _ ho
  obtain ⟨-, h2, h3, -⟩ := build_facts _ _ _ _ _ hb
  obtain ⟨-, w1, -, w3⟩ := C109_received walW_laws walE_encoding _ _ _ _ hadd
  obtain ⟨-, w2, -, -⟩ := C109_received walW_laws walE_encoding _ _ _ _ haddb
  obtain ⟨tm, htm⟩ := makeMemo_exists walW_laws [1] walIdentity true true b
    ([30, 40].zip [encrypt (F := ℚ) (G := ℚ) 1 30 5 walIdentity.keys.attrs, encrypt (F := ℚ) (G := ℚ) 1 40 6 walIdentity.keys.attrs])
  let r : AssetRecord walT := ⟨b, [walW.viewPolicy walIdentity], [some ((8 : Nat), walIdentity.keys.attrs)], [walW.viewMemo tm], m'.map walW.om⟩
  have hr : walW.fromTemplateCred walE (walCred 8) 12 walRnd (fun _ => [1]) (walOut walBob (2 ^ 40) [walIdentity]) = .ok r := by
    have hl : loopRes (fun n (x : Policy walT ℚ Nat × (Option (List (Ct ℚ) × (Nat × ℚ)) × List UInt32)) => walW.makeMemo ((fun _ => [1]) n) x.1
        (walOut walBob (2 ^ 40) [walIdentity]).confAmount (walOut walBob (2 ^ 40) [walIdentity]).confType b (attrsOf (S := walT) x.2)) 0
        ((walOut walBob (2 ^ 40) [walIdentity]).policies.zip [(some ([encrypt (F := ℚ) (G := ℚ) 1 30 5 walIdentity.keys.attrs,
          encrypt (F := ℚ) (G := ℚ) 1 40 6 walIdentity.keys.attrs], (8 : Nat), walIdentity.keys.attrs), [30, 40])]) = .ok [tm] := by
      have : ∀ x, x = Res.ok tm → (x >>= fun b => Res.ok [b]) = Res.ok [tm] := by
        rintro _ rfl
        rfl
      exact this _ htm
    unfold WalletExt.fromTemplateCred
    have hids : loopRes (outputCredStep (walCred 8)) 0 (walOut walBob (2 ^ 40) [walIdentity]).policies =
        .ok [(some ([encrypt (F := ℚ) (G := ℚ) 1 30 5 walIdentity.keys.attrs, encrypt (F := ℚ) (G := ℚ) 1 40 6 walIdentity.keys.attrs], (8 : Nat), walIdentity.keys.attrs),
          [30, 40])] := rfl
    rw [hids, Res.bind_ok]
    unfold WalletExt.buildInput
    rw [if_neg (by simp [walOut]), if_neg (by simp [walOut, walIdentity]),
      show walW.build walE 12 walRnd (walOut walBob (2 ^ 40) [walIdentity]).toTemplate = .ok (b, m') from hb, Res.bind_ok]
    have : ∀ x, x = Res.ok [tm] → (x >>= fun l => Res.ok (⟨b, [walW.viewPolicy walIdentity], [some ((8 : Nat), walIdentity.keys.attrs)], l.map walW.viewMemo,
        m'.map walW.om⟩ : AssetRecord walT)) = Res.ok r := by
      rintro _ rfl
      rfl
    exact this _ hl
  have hsome := (C99_note_made_iff walE_provers walW.enc (fun _ => rfl) (fun _ _ => rfl) [fromOpen o] [r] [walAlice]
    (by
      intro x hx
      simp only [List.cons_append, List.nil_append, List.mem_cons, List.not_mem_nil, or_false] at hx
      rcases hx with rfl | rfl
      exacts [w1, w2])
    (by
      intro x hx pm hpm
      simp only [List.cons_append, List.nil_append, List.mem_cons, List.not_mem_nil, or_false] at hx
      rcases hx with rfl | rfl
      · cases hpm
      · obtain rfl := List.mem_singleton.mp hpm
        intro h
        cases h)).mpr ⟨by simp, by
      simp only [fromOpen, List.map_cons, List.map_nil, w3]
      rfl, by
      intro t
      simp [openTotal, fromOpen, r, f2, f3, h2, h3, walOut], fun _ _ => ⟨by simp, by
        simp only [amountSum, List.map_cons, List.map_nil, List.sum_cons, List.sum_nil, fromOpen, f2]
        decide⟩, fun _ _ => by simp, fun h => absurd h (by
        rintro ⟨x, hx, y, hy, hne⟩
        have : ∀ z ∈ ([fromOpen o] : List (AssetRecord walT)) ++ [r], z.oar.assetType = walType := by
          intro z hz
          simp only [List.cons_append, List.nil_append, List.mem_cons, List.not_mem_nil, or_false] at hz
          rcases hz with rfl | rfl
          exacts [f3, h3]
        exact hne ((this x hx).trans (this y hy).symm))⟩
  obtain ⟨note, hn⟩ := Option.isSome_iff_exists.mp hsome
  refine ⟨o, m.map walW.om, r, note, hadd, walCred_ok 8, rfl, hr, hn, fun v ps scs scs' hv => ?_⟩
  have hbody : note.body.outputsIdentityProofs = [[some ((8 : Nat), walIdentity.keys.attrs)]] := by
    unfold Ext.genNote at hn
    split at hn
    · cases hn
    split at hn
    · cases hn
    obtain ⟨body, g1, hn⟩ := Option.bind_eq_some_iff.mp hn
    obtain ⟨_, -, hn⟩ := Option.bind_eq_some_iff.mp hn
    obtain ⟨_, -, hn⟩ := Option.bind_eq_some_iff.mp hn
    obtain rfl := Option.some.inj hn
    unfold Ext.genBody at g1
    obtain ⟨_, -, g1⟩ := Option.bind_eq_some_iff.mp g1
    split at g1
    · cases g1
    obtain ⟨_, -, g1⟩ := Option.bind_eq_some_iff.mp g1
    obtain ⟨_, -, g1⟩ := Option.bind_eq_some_iff.mp g1
    obtain rfl := Option.some.inj g1
    rfl
  obtain ⟨_, _, qs, q, sc, -, -, k1, k2, -, -, -, k3⟩ := (C25_accepted_identities walE note _ hv).2 0 0 _ _ rfl rfl
  rw [hbody] at k1
  obtain rfl := Option.some.inj k1
  obtain rfl := Option.some.inj k2
  obtain ⟨c, pf, -, k4, k5⟩ := k3
  obtain rfl := Option.some.inj k4
  cases k5

end Verif.Xfr
