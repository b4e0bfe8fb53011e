import Verif.Xfr.Identity
import Verif.Xfr.InputsExamples

/-!
C110 on a concrete setting: the credential of the example of C41, with the attributes 41, 43 and 47, of which a policy reveals the first and the
last.
-/

namespace Verif.Xfr

open ElGamal Spec
open AnonCreds (exPairing exKeys exSig exCm exOracle IssuerPK Credential Randomizer comm)
open ConfidentialCreds (exBl exCts exPok exPok' CACPoK cacVerify extracted)
open Verif.Sigma (multiExpDefault)

@[reducible] def idT : Types :=
  { walT with
    IP := ZMod 101 × RevealPolicy (ZMod 101) (ZMod 101)
    ACt := Ct (ZMod 101)
    IPf := CACPoK (ZMod 101) (ZMod 101) (ZMod 101)
    SC := AnonCreds.Sig (ZMod 101) }

/-- the verifiers for the `k`-th answer of the transcript hash -/
@[reducible] def idE (k : ZMod 101) : Ext idT where
  decompress := some
  compress := id
  identityC := (0, 0)
  B := (1, 0)
  Bb := (0, 1)
  asScalar := fun t => (ofLE t.1 : ℚ)
  proveRanges := toyM.proveRanges
  batchRanges := toyM.batchRanges
  proveAsset := toyM.proveAsset
  batchAsset := toyM.batchAsset
  proveMix := toyM.proveMix
  batchMix := toyM.batchMix
  provePeg := fun _ _ _ _ _ => ()
  batchPeg := fun l => l.all (fun e => e.2.1 == e.2.2.1.map (fun c => encrypt (1, 0) c.1 c.2 e.1))
  acVerify := fun ip cm cts pok =>
    match cacVerify exPairing multiExpDefault (exOracle k) ip.2.issuer ip.1 ip.2.revealMap cm cts pok [] with
    | .ok () => true
    | _ => false
  ser := fun b => some [UInt8.ofNat b.inputs.length, UInt8.ofNat b.outputs.length]
  pkBytes := walBytes
  sigVerify := fun pk m s => s == (walBytes pk, m)
  kpPub := toyPrims.pubOf walAddr
  kpSign := fun k m => some (walBytes (toyPrims.pubOf walAddr k), m)

@[reducible] def idW : WalletExt idT (ZMod 101) (ZMod 101) (ZMod 97) (ZMod 101) (RevealPolicy (ZMod 101) (ZMod 101)) where
  toMemoPrims := toyPrims
  kOrder := 2 ^ 256
  hashScalar := fun b l => (ofLE b + l.length : ℚ)
  atBytes := fun t => t.1
  atOf := fun b => if h : b.length = 32 then ⟨b, h⟩ else ⟨List.replicate 32 0, rfl⟩
  pkView := id
  gBase := (1, 0)
  hBase := 1
  asScalar := fun t => (ofLE t.1 : ℚ)
  ek := id
  ct := id
  act := id
  hBytes := fun _ => []
  enc := fun k m r => encrypt (1, 0) m r k
  om := id
  omOf := id
  secOf := id
  addr := walAddr
  ip := fun k j => (k.attrs, j)

theorem idW_laws (k : ZMod 101) : WalletLaws idW (idE k) where
  records := ⟨toyPrims_laws, le_refl _, recR_laws.scNum_lt, fun t => t.2, fun t => by simp [t.2]⟩
  scalar := fun _ => rfl
  enc := fun _ _ _ => rfl
  om := fun _ => rfl
  kp := fun _ => rfl

theorem idE_provers (k : ZMod 101) : Provers (idE k) := ⟨toyM_provers.ranges, toyM_provers.asset, toyM_provers.mix, toyM_provers.mixRefused⟩
theorem idE_encoding (k : ZMod 101) : Encoding (idE k) := ⟨fun _ => rfl, fun c g h => by simpa using h.symm, rfl⟩
theorem idE_complete (k : ZMod 101) : Complete (idE k) := ⟨toyM_complete.ranges, toyM_complete.asset, toyM_complete.mix⟩
theorem idE_batching (k : ZMod 101) : Batching (idE k) := ⟨toyM_batching.ranges, toyM_batching.asset, toyM_batching.mix, fun l => by simp⟩
theorem idE_peg (k : ZMod 101) : PegComplete idW.enc (idE k) := by
  intro k l
  simp

@[reducible] def idD (k : ZMod 101) : IdExt idT (ZMod 101) (ZMod 101) (ZMod 101) (ZMod 101) := ⟨exPairing, exOracle k, id, id⟩

theorem idD_laws (k : ZMod 101) : IdentityLaws idW (idE k) (idD k) where
  base := rfl
  verify := by
    intro ks j cm cts pok
    simp only [List.map_id, id]
    generalize cacVerify exPairing multiExpDefault (exOracle k) j.issuer ks.attrs j.revealMap cm cts pok [] = x
    cases x <;> simp

def idCred : Credential UInt32 (ZMod 101) (ZMod 101) := ⟨exSig, [41, 43, 47], exKeys.2⟩

theorem idCred_granted : Granted idCred.ipk (37 : ZMod 101) idCred.attrs idCred.sig := by
  refine ⟨3, 5, 7, 11, [13, 17, 19], 53, by decide, rfl, ?_⟩
  decide +kernel

def idKeys : DecKeys ℚ (ZMod 101) × EncKeys (ℚ × ℚ) (ZMod 101) := idW.generate 5 9 (List.replicate 32 9)
def idReveal : RevealPolicy (ZMod 101) (ZMod 101) := ⟨exKeys.2, [true, false, true]⟩
def idPolicy : Policy idT (ZMod 101) (RevealPolicy (ZMod 101) (ZMod 101)) := ⟨idKeys.2, false, some idReveal⟩

def idOut (k : SecKey toyKeys) (a : UInt64) : FullTemplate idT (ZMod 101) (RevealPolicy (ZMod 101) (ZMod 101)) :=
  { amount := a, assetType := walType, confAmount := true, confType := true, publicKey := toyPrims.pubOf walAddr k, policies := [] }

theorem idOpen (k : ZMod 101) (r : List (Ct (ZMod 101)) × CACPoK (ZMod 101) (ZMod 101) (ZMod 101)) (h : ConfidentialCreds.exOpen k = .ok r) :
    ((idD k).cred (fun _ => exBl) 37 idCred ⟨59, 61⟩).openCom 0 idKeys.2 idReveal = .ok r := by
  have hk : idKeys.2.attrs = 9 := by decide +kernel
  have hc : comm idCred.sig (⟨59, 61⟩ : Randomizer (ZMod 101)) = exCm := by decide +kernel
  have ha : scalars (ZMod 101) idCred.attrs = [41, 43, 47] := by decide +kernel
  simp only [IdExt.cred]
  rw [hk, hc, ha]
  have : ∀ x : Res (List (Ct (ZMod 101)) × CACPoK (ZMod 101) (ZMod 101) (ZMod 101)), x = .ok r → (do let r ← x; pure (r.1, id r.2)) = .ok r := by
    rintro _ rfl
    rfl
  exact this _ h

theorem idBuild (k k' : ZMod 101) (r : Nat) (rnd : EncRand) (t : Template idT) : idW.build (idE k) r rnd t = idW.build (idE k') r rnd t := rfl

/-- Alice spends a hidden record under the policy, with the credential, once for each of two answers of the hash: both notes are accepted, they
have the same memo, from which the tracer reads 41 and 47, and they meet what `C110_payer_accountable_partial` asks for. -/
example : ∃ (note note' : XfrNote idT) (ms : List (TracerMemo idT)) (m : FullMemo idT.G (ZMod 101)) (pol : Policies idT),
    (idE 1).verifyNote note pol = some () ∧ (idE 2).verifyNote note' pol = some () ∧
    note'.body.tracingMemos = note.body.tracingMemos ∧ note'.body.inputs = note.body.inputs ∧
    pol.inputsPolicies[0]? = some ([idPolicy].map idW.viewPolicy) ∧ note.body.tracingMemos[0]? = some ms ∧ ms[0]? = some (idW.viewMemo m) ∧
    pol.inputsSigComs[0]? = some (some ((idD 1).sc exCm)) ∧ note.body.inputsIdentityProofs[0]? = some [some ((idD 1).ipf exPok)] ∧
    note'.body.inputsIdentityProofs[0]? = some [some ((idD 1).ipf exPok')] ∧ m.lockAttrs = exCts ∧
    idW.decryptMemo m idKeys.1 = .ok (none, none, [41, 47]) := by
  have hgcm : ∀ key msg, ∃ c, idW.gcmEnc key msg = some c := fun _ _ => ⟨_, rfl⟩
  have hA : ∀ k, walAlice ≠ .address k := fun k h => by cases h
  have hB : ∀ k, walBob ≠ .address k := fun k h => by cases h
  have g12 : idW.GoodRand 12 := ⟨by norm_num, by norm_num⟩
  obtain ⟨o, om, ho⟩ := C20_build_succeeds_partial idW.toRecExt (idW_laws 1).records (idE 1) walAddr 12 walRnd (idOut walAlice (2 ^ 40)).toTemplate
    walAlice hA rfl hgcm
  obtain ⟨b, bm, hb⟩ := C20_build_succeeds_partial idW.toRecExt (idW_laws 1).records (idE 1) walAddr 12 walRnd (idOut walBob (2 ^ 40)).toTemplate
    walBob hB rfl hgcm
  have ho' : ∀ k, idW.build (idE k) 12 walRnd (idOut walAlice (2 ^ 40)).toTemplate = .ok (o, om) := fun k => by
    rw [idBuild k 1]
    exact ho
  have hadd : ∀ k, AddressedTo idW (idE k) walAlice o.bar (om.map idW.om) o := fun k => ⟨12, walRnd, _, om, g12, rfl, ho' k, rfl, rfl⟩
  obtain ⟨-, f2, f3, -⟩ := build_facts _ _ _ _ _ ho
  obtain ⟨tm, htm⟩ := makeMemo_exists (idW_laws 1) [1] idPolicy o.bar.recordType.1 o.bar.recordType.2 o (([41, 47] : List UInt32).zip exCts)
  -- the input, for each answer of the hash
  have hr : ∀ k pok, ConfidentialCreds.exOpen k = .ok (exCts, pok) →
      idW.fromOpenCred ((idD k).cred (fun _ => exBl) 37 idCred ⟨59, 61⟩) (fun _ => [1]) o [idPolicy] =
        .ok ⟨o, [idW.viewPolicy idPolicy], [some pok], [idW.viewMemo tm], none⟩ := by
    intro k pok hk
    have h1 := idOpen k _ hk
    have h2 : ((idD k).cred (fun _ => exBl) 37 idCred ⟨59, 61⟩).identity 0 idPolicy = .ok (([41, 47] : List UInt32).zip exCts, some pok) := by
      unfold CredExt.identity
      simp only [idPolicy]
      rw [if_neg (by simp [IdExt.cred, idCred, idReveal]), h1]
      rfl
    unfold WalletExt.fromOpenCred
    simp only [loopRes]
    unfold WalletExt.inputCredStep
    rw [h2, Res.bind_ok, htm]
    rfl
  have main : ∀ k pok, ConfidentialCreds.exOpen k = .ok (exCts, pok) → ∃ note : XfrNote idT,
      (idE k).verifyNote note ⟨true, [[idW.viewPolicy idPolicy]], [some exCm], [[]], [none]⟩ = some () ∧ note.body.inputs = [o.bar] ∧
      note.body.tracingMemos = [[idW.viewMemo tm], []] ∧ note.body.inputsIdentityProofs = [[some pok]] ∧
      ∃ m, idW.viewMemo tm = idW.viewMemo m ∧ idW.decryptMemo m idKeys.1 = .ok (none, none, [41, 47]) := by
    intro k pok hk
    have hr := hr k pok hk
    obtain ⟨i1, i2⟩ := (C110_payer_traced_partial (idW_laws k) (idD_laws k) (fun _ => exBl) 37 idCred ⟨59, 61⟩ idCred_granted (fun _ => [1]) o [idPolicy]).2 _ hr
    rw [show comm idCred.sig (⟨59, 61⟩ : Randomizer (ZMod 101)) = exCm by decide +kernel] at i1
    obtain ⟨o2, h2⟩ := (C109_made (idW_laws k) (fun _ => [2]) o [] ((idD k).cred (fun _ => exBl) 37 idCred ⟨59, 61⟩) 12 walRnd (idOut walBob (2 ^ 40)) walBob
      hB rfl hgcm).2.2.1.mpr (by simp [idOut])
    have t2 : OutputOf idW (idE k) (fun j as => as = ConfidentialCreds.pick idCred.attrs j.revealMap) (idOut walBob (2 ^ 40)) none o2 := .plain _ _ _ _ _ g12 h2
    obtain ⟨b1, b2, -⟩ := C109_output (idW_laws k) (idE_encoding k) (fun j as => as = ConfidentialCreds.pick idCred.attrs j.revealMap) _ _ _ t2
    have hrec := (C109_received (idW_laws k) (idE_encoding k) _ _ _ _ (hadd k)).1
    obtain ⟨note, c1, c2, c3, c4, -⟩ := C109_spend (idW_laws k) (idE_provers k) (idE_encoding k) (idE_complete k) (idE_batching k) (idE_peg k) walBytes_inj
      (fun _ => rfl) (fun k m => ⟨_, rfl, by simp⟩) (fun j as => as = ConfidentialCreds.pick idCred.attrs j.revealMap)
      [⟨walAlice, o.bar, om.map idW.om, [idPolicy], some exCm, _⟩] [⟨idOut walBob (2 ^ 40), none, o2⟩]
      (by
        intro i hi
        obtain rfl := List.mem_singleton.mp hi
        exact ⟨⟨o, hadd k⟩, o, hrec, i1⟩)
      (by
        intro x hx
        obtain rfl := List.mem_singleton.mp hx
        exact t2) (by simp)
      (by
        intro t
        simp only [List.map_cons, List.map_nil, openTotal, List.sum_cons, List.sum_nil]
        rw [f2, f3, b1, b2]
        rfl)
      ⟨fun _ _ => ⟨by simp, by
        simp only [List.map_cons, List.map_nil, amountSum, List.sum_cons, List.sum_nil, f2]
        decide⟩, fun _ _ => by simp, fun h => absurd h (by
          rintro ⟨x, hx, y, hy, hne⟩
          simp only [List.map_cons, List.map_nil, List.cons_append, List.nil_append, List.mem_cons, List.not_mem_nil, or_false] at hx hy
          have hx' : x.oar.assetType = walType := by
            rcases hx with rfl | rfl
            exacts [f3, b2]
          have hy' : y.oar.assetType = walType := by
            rcases hy with rfl | rfl
            exacts [f3, b2]
          exact hne (hx'.trans hy'.symm))⟩
    obtain ⟨m, m1, m2⟩ := i2 0 idPolicy rfl 5 9 (List.replicate 32 9) rfl
    have hbody : note.body.inputsIdentityProofs = [[some pok]] := by
      unfold Ext.genNote at c1
      split at c1
      · cases c1
      split at c1
      · cases c1
      obtain ⟨body, g1, c1⟩ := Option.bind_eq_some_iff.mp c1
      obtain ⟨_, -, c1⟩ := Option.bind_eq_some_iff.mp c1
      obtain ⟨_, -, c1⟩ := Option.bind_eq_some_iff.mp c1
      obtain rfl := Option.some.inj c1
      unfold Ext.genBody at g1
      obtain ⟨_, -, g1⟩ := Option.bind_eq_some_iff.mp g1
      split at g1
      · cases g1
      obtain ⟨_, -, g1⟩ := Option.bind_eq_some_iff.mp g1
      obtain ⟨_, -, g1⟩ := Option.bind_eq_some_iff.mp g1
      obtain rfl := Option.some.inj g1
      rfl
    refine ⟨note, c2, c3, ?_, hbody, m, Option.some.inj m1, m2⟩
    have hnil : o2.tracersMemos = [] := by
      unfold WalletExt.fromTemplate WalletExt.buildInput at h2
      rw [if_neg (by simp [idOut]), if_neg (by simp [idOut]), if_neg (by simp [idOut])] at h2
      obtain ⟨_, -, h2⟩ := Res.bind_eq_ok.mp h2
      obtain ⟨l, hl, h2⟩ := Res.bind_eq_ok.mp h2
      obtain rfl := (Res.ok.inj h2).symm
      obtain rfl := (Res.ok.inj hl).symm
      rfl
    rw [c4]
    simp only [List.map_cons, List.map_nil, List.cons_append, List.nil_append, hnil]
  obtain ⟨note, n1, n2, n3, n4, m, n5, n6⟩ := main 1 exPok (by decide +kernel)
  obtain ⟨note', n1', n2', n3', n4', -⟩ := main 2 exPok' (by decide +kernel)
  refine ⟨note, note', _, m, _, n1, n1', by rw [n3, n3'], by rw [n2, n2'], rfl, by rw [n3]; rfl, congrArg some n5, rfl, by rw [n4]; rfl,
    by rw [n4']; rfl, ?_, n6⟩
  have e1 : tm.lockAttrs.map id = m.lockAttrs.map id := congrArg TracerMemo.lockAttributes n5
  rw [List.map_id, List.map_id] at e1
  rw [← e1]
  unfold WalletExt.makeMemo TraceExt.newMemo at htm
  obtain ⟨h, -, rfl⟩ := Option.map_eq_some_iff.mp (Res.unwrap_eq_ok htm)
  rfl

/-- no credential is granted by the issuer with four attributes, and the constructor refuses a map of another length -/
example : ¬ Granted exKeys.2 (37 : ZMod 101) [41, 43, 47, 5] exSig ∧
    ¬ ∃ r, idW.fromOpenCred ((idD 1).cred (fun _ => exBl) 37 idCred ⟨59, 61⟩) (fun _ => [1])
      ⟨⟨.plain 3, .plain walType, toyPrims.pubOf walAddr walBob⟩, 3, (0, 0), walType, 0⟩ [{ idPolicy with identityTracing := some ⟨exKeys.2, [true]⟩ }] =
      .ok r := by
  refine ⟨fun h => absurd (granted_length h) (by decide), fun h => ?_⟩
  have := (C110_payer_traced_partial (idW_laws 1) (idD_laws 1) (fun _ => exBl) 37 idCred ⟨59, 61⟩ idCred_granted (fun _ => [1]) _ _).1.mp h _
    (List.mem_singleton.mpr rfl) _ rfl
  exact absurd this.2 (by decide)

/-- an output for Bob with the same policy, and what its tracer reads -/
example : ∃ r m, idW.fromTemplateCred (idE 1) ((idD 1).cred (fun _ => exBl) 37 idCred ⟨59, 61⟩) 12 walRnd (fun _ => [1])
      { idOut walBob 8 with policies := [idPolicy] } = .ok r ∧ r.tracersMemos[0]? = some (idW.viewMemo m) ∧
    idW.decryptMemo m idKeys.1 = .ok (none, none, [41, 47]) := by
  have hB : ∀ k, walBob ≠ .address k := fun k h => by cases h
  obtain ⟨h1, h2⟩ := C110_payee_traced_partial (idW_laws 1) (idD_laws 1) (fun _ => exBl) 37 idCred ⟨59, 61⟩ idCred_granted 12 ⟨by norm_num, by norm_num⟩
    walRnd (fun _ => [1]) { idOut walBob 8 with policies := [idPolicy] } walBob hB rfl (fun _ _ => ⟨_, rfl⟩)
    (by
      intro p hp j hj
      obtain rfl := List.mem_singleton.mp hp
      obtain rfl := Option.some.inj hj
      rfl)
  obtain ⟨r, hr⟩ := h1.mpr (by
    intro p hp j hj
    obtain rfl := List.mem_singleton.mp hp
    obtain rfl := Option.some.inj hj
    rfl)
  obtain ⟨-, h3⟩ := h2 r hr
  obtain ⟨m, m1, m2⟩ := h3 0 idPolicy rfl 5 9 (List.replicate 32 9) rfl
  exact ⟨r, m, hr, m1, m2⟩

end Verif.Xfr
