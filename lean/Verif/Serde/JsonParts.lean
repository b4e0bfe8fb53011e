import Verif.Serde.JsonKeeps

/-!
C112, the inside of notes: proofs, ciphertexts and memos for tracers stand under the names of their members.  The descriptions are read in the two
ways of `Serde/JsonKeeps.lean`.
-/

namespace Verif.Serde

open Verif.Xfr (Types BlindAssetRecord TracerMemo RangeProof AmountProof XfrBody XfrNote)
open Verif.Anon (ArToAbarNote BarToAbarNote AbarToArNote AbarToBarNote FoldInst)

theorem b64_read {v : Json} {b : Bytes} (h : jB64.de v = .ok b) : reading.leaf asIs b v := by
  obtain ⟨s, hs, hd⟩ := Res.bind_eq_ok.mp h
  cases v with
  | str t =>
    cases hs
    exact ⟨s, b, rfl, ofOption_ok.mp hd, rfl⟩
  | _ => cases hs

/-- two objects in an array -/
def PairIn {α β : Type} (P : α → Json → Prop) (Q : β → Json → Prop) (p : α × β) (j : Json) : Prop := ∃ x y, j = .arr [x, y] ∧ P p.1 x ∧ Q p.2 y

theorem pair_read {α β : Type} {c : Codec α} {e : Codec β} {P : α → Json → Prop} {Q : β → Json → Prop} {p : α × β} {j : Json}
    (h : (jPair c e).de j = .ok p) (hP : ∀ a v, c.de v = .ok a → P a v) (hQ : ∀ a v, e.de v = .ok a → Q a v) : PairIn P Q p j := by
  obtain ⟨x, y, h1, h2, h3⟩ := pair_seen h
  exact ⟨x, y, h1, hP _ _ h2, hQ _ _ h3⟩

theorem via_read {α β : Type} {c : Codec β} {f : α → β} {g : β → Res α} {P : β → Json → Prop} {a : α} {j : Json} (h : (c.via f g).de j = .ok a)
    (hP : ∀ b v, c.de v = .ok b → P b v) : reading.parts f g P a j := by
  obtain ⟨b, hb, e⟩ := Res.bind_eq_ok.mp h
  exact ⟨b, e, hP b j hb⟩

/-! ### Proofs and ciphertexts -/

/-- a ciphertext of ElGamal -/
structure CtIn (V : View) (c : WCt) (j : Json) : Prop where
  e1 : V.under j (ascii! "e1") (V.leaf asIs c.e1)
  e2 : V.under j (ascii! "e2") (V.leaf asIs c.e2)

/-- a proof of Chaum and Pedersen -/
structure CpIn (V : View) (p : WCp) (j : Json) : Prop where
  c3 : V.under j (ascii! "c3") (V.leaf asIs p.c3)
  c4 : V.under j (ascii! "c4") (V.leaf asIs p.c4)
  z1 : V.under j (ascii! "z1") (V.leaf asIs p.z1)
  z2 : V.under j (ascii! "z2") (V.leaf asIs p.z2)
  z3 : V.under j (ascii! "z3") (V.leaf asIs p.z3)

/-- the proof for several commitments -/
structure CpxIn (V : View) (p : WCpx) (j : Json) : Prop where
  first : V.under j (ascii! "c1_eq_c2") (CpIn V p.c1EqC2)
  zero : V.under j (ascii! "zero") (OptIn (CpIn V) p.zero)

/-- the proof that a ciphertext and a commitment agree -/
structure PegIn (V : View) (p : WPeg) (j : Json) : Prop where
  z1 : V.under j (ascii! "z1") (V.leaf asIs p.z1)
  z2 : V.under j (ascii! "z2") (V.leaf asIs p.z2)
  e1 : V.under j (ascii! "e1") (V.leaf asIs p.e1)
  c1 : V.under j (ascii! "c1") (V.leaf asIs p.c1)

/-- the proof of a credential -/
structure PokIn (V : View) (p : WPok) (j : Json) : Prop where
  blinding : V.under j (ascii! "blinding") (V.leaf asIs p.blinding)
  t : V.under j (ascii! "response_t") (V.leaf asIs p.responseT)
  sk : V.under j (ascii! "response_sk") (V.leaf asIs p.responseSk)
  attrs : V.under j (ascii! "response_attrs") (ListIn (V.leaf asIs) p.responseAttrs)

/-- the proof of a credential with encrypted attributes -/
structure CacIn (V : View) (p : WCac) (j : Json) : Prop where
  pok : V.under j (ascii! "pok") (PokIn V p.pok)
  cts : V.under j (ascii! "cm_ct") (ListIn (CtIn V) p.cmCt)
  rands : V.under j (ascii! "response_rands") (ListIn (V.leaf asIs) p.responseRands)

/-- a Plonk proof -/
structure PlonkIn (V : View) (p : WPlonk) (j : Json) : Prop where
  cmW : V.under j (ascii! "cm_w_vec") (ListIn (V.leaf asIs) p.cmW)
  cmT : V.under j (ascii! "cm_t_vec") (ListIn (V.leaf asIs) p.cmT)
  cmZ : V.under j (ascii! "cm_z") (V.leaf asIs p.cmZ)
  wEvals : V.under j (ascii! "w_polys_eval_zeta") (ListIn (V.leaf asIs) p.wEvals)
  zEval : V.under j (ascii! "z_eval_zeta_omega") (V.leaf asIs p.zEval)
  sEvals : V.under j (ascii! "s_polys_eval_zeta") (ListIn (V.leaf asIs) p.sEvals)
  open1 : V.under j (ascii! "opening_witness_zeta") (V.leaf asIs p.open1)
  open2 : V.under j (ascii! "opening_witness_zeta_omega") (V.leaf asIs p.open2)

/-- the member at a place in the declaration -/
macro "m0! " h:term:max hv:term:max : term => `(seen_first (by ign) $h $hv)
macro "m1! " h:term:max hv:term:max : term => `(seen_first (by ign) (seen_rest (by ign) $h $hv) $hv)
macro "m2! " h:term:max hv:term:max : term => `(seen_first (by ign) (seen_rest (by ign) (seen_rest (by ign) $h $hv) $hv) $hv)
macro "m3! " h:term:max hv:term:max : term =>
  `(seen_first (by ign) (seen_rest (by ign) (seen_rest (by ign) (seen_rest (by ign) $h $hv) $hv) $hv) $hv)
macro "m4! " h:term:max hv:term:max : term =>
  `(seen_first (by ign) (seen_rest (by ign) (seen_rest (by ign) (seen_rest (by ign) (seen_rest (by ign) $h $hv) $hv) $hv) $hv) $hv)
macro "m5! " h:term:max hv:term:max : term =>
  `(seen_first (by ign) (seen_rest (by ign) (seen_rest (by ign) (seen_rest (by ign) (seen_rest (by ign) (seen_rest (by ign) $h $hv) $hv) $hv) $hv)
    $hv) $hv)
macro "m6! " h:term:max hv:term:max : term =>
  `(seen_first (by ign) (seen_rest (by ign) (seen_rest (by ign) (seen_rest (by ign) (seen_rest (by ign) (seen_rest (by ign) (seen_rest (by ign) $h
    $hv) $hv) $hv) $hv) $hv) $hv) $hv)
macro "m7! " h:term:max hv:term:max : term =>
  `(seen_first (by ign) (seen_rest (by ign) (seen_rest (by ign) (seen_rest (by ign) (seen_rest (by ign) (seen_rest (by ign) (seen_rest (by ign)
    (seen_rest (by ign) $h $hv) $hv) $hv) $hv) $hv) $hv) $hv) $hv)

theorem ct_read {j : Json} {c : WCt} (h : jCt.de j = .ok c) : CtIn reading c j := by
  obtain ⟨⟨a, b, u⟩, hd, e⟩ := Res.bind_eq_ok.mp h
  cases e
  refine ⟨fun v hv => ?_, fun v hv => ?_⟩
  · have h := m0! hd hv
    exact b64_read h
  · have h := m1! hd hv
    exact b64_read h

theorem ct_written (c : WCt) : CtIn writing c (jCt.ser c) := ⟨⟨_, rfl, rfl⟩, ⟨_, rfl, rfl⟩⟩

theorem cp_read {j : Json} {c : WCp} (h : jCp.de j = .ok c) : CpIn reading c j := by
  obtain ⟨⟨a, b, c, d, f, u⟩, hd, e⟩ := Res.bind_eq_ok.mp h
  cases e
  refine ⟨fun v hv => ?_, fun v hv => ?_, fun v hv => ?_, fun v hv => ?_, fun v hv => ?_⟩
  · have h := m0! hd hv
    exact b64_read h
  · have h := m1! hd hv
    exact b64_read h
  · have h := m2! hd hv
    exact b64_read h
  · have h := m3! hd hv
    exact b64_read h
  · have h := m4! hd hv
    exact b64_read h

theorem cp_written (c : WCp) : CpIn writing c (jCp.ser c) := ⟨⟨_, rfl, rfl⟩, ⟨_, rfl, rfl⟩, ⟨_, rfl, rfl⟩, ⟨_, rfl, rfl⟩, ⟨_, rfl, rfl⟩⟩

theorem cpx_read {j : Json} {c : WCpx} (h : jCpx.de j = .ok c) : CpxIn reading c j := by
  obtain ⟨⟨a, b, u⟩, hd, e⟩ := Res.bind_eq_ok.mp h
  cases e
  refine ⟨fun v hv => ?_, fun v hv => ?_⟩
  · have h := m0! hd hv
    exact cp_read h
  · have h := m1! hd hv
    exact option_read h (fun _ _ => cp_read)

theorem cpx_written (c : WCpx) : CpxIn writing c (jCpx.ser c) := ⟨⟨_, rfl, cp_written _⟩, ⟨_, rfl, option_written (c := jCp) cp_written _⟩⟩

theorem peg_read {j : Json} {c : WPeg} (h : jPeg.de j = .ok c) : PegIn reading c j := by
  obtain ⟨⟨a, b, c, d, u⟩, hd, e⟩ := Res.bind_eq_ok.mp h
  cases e
  refine ⟨fun v hv => ?_, fun v hv => ?_, fun v hv => ?_, fun v hv => ?_⟩
  · have h := m0! hd hv
    exact b64_read h
  · have h := m1! hd hv
    exact b64_read h
  · have h := m2! hd hv
    exact b64_read h
  · have h := m3! hd hv
    exact b64_read h

theorem peg_written (c : WPeg) : PegIn writing c (jPeg.ser c) := ⟨⟨_, rfl, rfl⟩, ⟨_, rfl, rfl⟩, ⟨_, rfl, rfl⟩, ⟨_, rfl, rfl⟩⟩

theorem texts_written (l : List Bytes) : ListIn (writing.leaf asIs) l ((jVec jB64).ser l) := vec_written (c := jB64) (P := writing.leaf asIs) (fun _ => rfl) l

theorem pok_read {j : Json} {c : WPok} (h : jPok.de j = .ok c) : PokIn reading c j := by
  obtain ⟨⟨a, b, c, d, u⟩, hd, e⟩ := Res.bind_eq_ok.mp h
  cases e
  refine ⟨fun v hv => ?_, fun v hv => ?_, fun v hv => ?_, fun v hv => ?_⟩
  · have h := m0! hd hv
    exact b64_read h
  · have h := m1! hd hv
    exact b64_read h
  · have h := m2! hd hv
    exact b64_read h
  · have h := m3! hd hv
    exact vec_read h (fun _ _ => b64_read)

theorem pok_written (c : WPok) : PokIn writing c (jPok.ser c) := ⟨⟨_, rfl, rfl⟩, ⟨_, rfl, rfl⟩, ⟨_, rfl, rfl⟩, ⟨_, rfl, texts_written _⟩⟩

theorem cac_read {j : Json} {c : WCac} (h : jCac.de j = .ok c) : CacIn reading c j := by
  obtain ⟨⟨a, b, c, u⟩, hd, e⟩ := Res.bind_eq_ok.mp h
  cases e
  refine ⟨fun v hv => ?_, fun v hv => ?_, fun v hv => ?_⟩
  · have h := m0! hd hv
    exact pok_read h
  · have h := m1! hd hv
    exact vec_read h (fun _ _ => ct_read)
  · have h := m2! hd hv
    exact vec_read h (fun _ _ => b64_read)

theorem cac_written (c : WCac) : CacIn writing c (jCac.ser c) :=
  ⟨⟨_, rfl, pok_written _⟩, ⟨_, rfl, vec_written (c := jCt) ct_written _⟩, ⟨_, rfl, texts_written _⟩⟩

theorem plonk_read {j : Json} {c : WPlonk} (h : jPlonk.de j = .ok c) : PlonkIn reading c j := by
  obtain ⟨⟨a, b, c, d, f, g, k, l, u⟩, hd, e⟩ := Res.bind_eq_ok.mp h
  cases e
  refine ⟨fun v hv => ?_, fun v hv => ?_, fun v hv => ?_, fun v hv => ?_, fun v hv => ?_, fun v hv => ?_, fun v hv => ?_, fun v hv => ?_⟩
  · have h := m0! hd hv
    exact vec_read h (fun _ _ => b64_read)
  · have h := m1! hd hv
    exact vec_read h (fun _ _ => b64_read)
  · have h := m2! hd hv
    exact b64_read h
  · have h := m3! hd hv
    exact vec_read h (fun _ _ => b64_read)
  · have h := m4! hd hv
    exact b64_read h
  · have h := m5! hd hv
    exact vec_read h (fun _ _ => b64_read)
  · have h := m6! hd hv
    exact b64_read h
  · have h := m7! hd hv
    exact b64_read h

theorem plonk_written (c : WPlonk) : PlonkIn writing c (jPlonk.ser c) :=
  ⟨⟨_, rfl, texts_written _⟩, ⟨_, rfl, texts_written _⟩, ⟨_, rfl, rfl⟩, ⟨_, rfl, texts_written _⟩, ⟨_, rfl, rfl⟩, ⟨_, rfl, texts_written _⟩,
    ⟨_, rfl, rfl⟩, ⟨_, rfl, rfl⟩⟩

/-! ### Transfers -/

section
variable {S : Types} (L : Leaves S) (R : Parse S)

/-- a memo for a tracer: the keys, then the ciphertexts of the amount, of the type, of the attributes, and of everything -/
structure TracerMemoIn (V : View) (m : TracerMemo S) (j : Json) : Prop where
  dataKey : V.under j (ascii! "enc_key") (fun k => V.under k (ascii! "record_data_enc_key") (V.leaf ⟨L.ek, R.ek⟩ m.encKey))
  attrsKey : V.under j (ascii! "enc_key") (fun k => V.under k (ascii! "attrs_enc_key") (V.leaf asIs m.attrsEncKey))
  lockKey : V.under j (ascii! "enc_key") (fun k => V.under k (ascii! "lock_info_enc_key") (V.leaf asIs m.lockInfoEncKey))
  amount : V.under j (ascii! "lock_amount") (OptIn (PairIn (V.parts L.ct R.ct (CtIn V)) (V.parts L.ct R.ct (CtIn V))) m.lockAmount)
  type : V.under j (ascii! "lock_asset_type") (OptIn (V.parts L.ct R.ct (CtIn V)) m.lockAssetType)
  attributes : V.under j (ascii! "lock_attributes") (ListIn (V.parts L.act R.act (CtIn V)) m.lockAttributes)
  text : V.under j (ascii! "lock_info") (fun k => V.under k (ascii! "ciphertext") (V.leaf asIs m.lockInfo.1))
  share : V.under j (ascii! "lock_info") (fun k => V.under k (ascii! "ephemeral_public_key") (V.leaf asIs m.lockInfo.2))

/-- a range proof -/
structure RangeIn (V : View) (p : RangeProof S) (j : Json) : Prop where
  proof : V.under j (ascii! "range_proof") (V.leaf ⟨L.rp, R.rp⟩ p.proof)
  low : V.under j (ascii! "xfr_diff_commitment_low") (V.leaf ⟨L.cg, R.cg⟩ p.diffLow)
  high : V.under j (ascii! "xfr_diff_commitment_high") (V.leaf ⟨L.cg, R.cg⟩ p.diffHigh)

/-- the proof of a transfer, under the name of its kind -/
def AmountProofIn (V : View) (p : AmountProof S) (j : Json) : Prop :=
  match p with
  | .assetMix p => ∃ v, j = .obj [(ascii! "AssetMix", v)] ∧ V.leaf ⟨L.mp, R.mp⟩ p v
  | .confAmount p => ∃ v, j = .obj [(ascii! "ConfAmount", v)] ∧ RangeIn L R V p v
  | .confAsset p => ∃ v, j = .obj [(ascii! "ConfAsset", v)] ∧ V.parts L.ap R.ap (CpxIn V) p v
  | .confAll p q => ∃ v, j = .obj [(ascii! "ConfAll", v)] ∧ PairIn (RangeIn L R V) (V.parts L.ap R.ap (CpxIn V)) (p, q) v
  | .noProof => j = .str (ascii! "NoProof") ∨ j = .obj [(ascii! "NoProof", .null)]

/-- the proofs and memos of a transfer -/
structure TransferIn (V : View) (b : XfrBody S) (j : Json) : Prop where
  amounts : V.under j (ascii! "proofs") (fun k => V.under k (ascii! "asset_type_and_amount_proof") (AmountProofIn L R V b.amountProof))
  tracing : V.under j (ascii! "proofs") (fun k => V.under k (ascii! "asset_tracing_proof") (fun t =>
    V.under t (ascii! "asset_type_and_amount_proofs") (ListIn (V.parts L.tpf R.tpf (PegIn V)) b.tracingProofs)))
  inputs : V.under j (ascii! "proofs") (fun k => V.under k (ascii! "asset_tracing_proof") (fun t =>
    V.under t (ascii! "inputs_identity_proofs") (ListIn (ListIn (OptIn (V.parts L.ipf R.ipf (CacIn V)))) b.inputsIdentityProofs)))
  outputs : V.under j (ascii! "proofs") (fun k => V.under k (ascii! "asset_tracing_proof") (fun t =>
    V.under t (ascii! "outputs_identity_proofs") (ListIn (ListIn (OptIn (V.parts L.ipf R.ipf (CacIn V)))) b.outputsIdentityProofs)))
  memos : V.under j (ascii! "asset_tracing_memos") (ListIn (ListIn (TracerMemoIn L R V)) b.tracingMemos)

variable {L R} {lay : WMemo → Layout} {sg : S.Sg → Bytes}

theorem tracerMemo_read {j : Json} {m : TracerMemo S} (h : (jTracerMemo L R).de j = .ok m) : TracerMemoIn L R reading m j := by
  obtain ⟨⟨⟨k1, k2, k3, u'⟩, b, c, d, ⟨x, y, u''⟩, u⟩, hd, e⟩ := Res.bind_eq_ok.mp h
  cases e
  refine ⟨fun k hk v hv => ?_, fun k hk v hv => ?_, fun k hk v hv => ?_, fun v hv => ?_, fun v hv => ?_, fun v hv => ?_, fun k hk v hv => ?_,
    fun k hk v hv => ?_⟩
  · have h := m0! hd hk
    have h' := m0! h hv
    exact leaf_seen h'
  · have h := m0! hd hk
    have h' := m1! h hv
    exact b64_read h'
  · have h := m0! hd hk
    have h' := m2! h hv
    exact b64_read h'
  · have h := m1! hd hv
    exact option_read h (fun _ _ h => pair_read h (fun _ _ h => via_read h (fun _ _ => ct_read)) (fun _ _ h => via_read h (fun _ _ => ct_read)))
  · have h := m2! hd hv
    exact option_read h (fun _ _ h => via_read h (fun _ _ => ct_read))
  · have h := m3! hd hv
    exact vec_read h (fun _ _ h => via_read h (fun _ _ => ct_read))
  · have h := m4! hd hk
    have h' := m0! h hv
    exact b64_read h'
  · have h := m4! hd hk
    have h' := m1! h hv
    exact b64_read h'

theorem tracerMemo_written (m : TracerMemo S) : TracerMemoIn L R writing m ((jTracerMemo L R).ser m) :=
  ⟨⟨_, rfl, _, rfl, rfl⟩, ⟨_, rfl, _, rfl, rfl⟩, ⟨_, rfl, _, rfl, rfl⟩,
    ⟨_, rfl, option_written (c := jPair (jCt.via L.ct R.ct) (jCt.via L.ct R.ct)) (fun _ => ⟨_, _, rfl, ct_written _, ct_written _⟩) _⟩,
    ⟨_, rfl, option_written (c := jCt.via L.ct R.ct) (fun _ => ct_written _) _⟩,
    ⟨_, rfl, vec_written (c := jCt.via L.act R.act) (fun _ => ct_written _) _⟩, ⟨_, rfl, _, rfl, rfl⟩, ⟨_, rfl, _, rfl, rfl⟩⟩

theorem range_read {j : Json} {p : RangeProof S} (h : (jRangeProof L R).de j = .ok p) : RangeIn L R reading p j := by
  obtain ⟨⟨a, b, c, u⟩, hd, e⟩ := Res.bind_eq_ok.mp h
  cases e
  refine ⟨fun v hv => ?_, fun v hv => ?_, fun v hv => ?_⟩
  · have h := m0! hd hv
    exact leaf_seen h
  · have h := m1! hd hv
    exact leaf_seen h
  · have h := m2! hd hv
    exact leaf_seen h

theorem range_written (p : RangeProof S) : RangeIn L R writing p ((jRangeProof L R).ser p) := ⟨⟨_, rfl, rfl⟩, ⟨_, rfl, rfl⟩, ⟨_, rfl, rfl⟩⟩

theorem amountProof_read {j : Json} {p : AmountProof S} (h : (jAmountProof L R).de j = .ok p) : AmountProofIn L R reading p j := by
  match j, h with
  | .str s, h =>
    change (if s = proofName 4 then Res.ok AmountProof.noProof else .err) = _ at h
    split_ifs at h with e
    cases h
    subst e
    exact .inl rfl
  | .obj [(n, v)], h =>
    change (if n = proofName 0 then _ else _) = _ at h
    split_ifs at h with h0 h1 h2 h3 h4
    · obtain ⟨x, hx, e⟩ := Res.bind_eq_ok.mp h
      cases e
      subst h0
      exact ⟨v, rfl, leaf_seen hx⟩
    · obtain ⟨x, hx, e⟩ := Res.bind_eq_ok.mp h
      cases e
      subst h1
      exact ⟨v, rfl, range_read hx⟩
    · obtain ⟨x, hx, e⟩ := Res.bind_eq_ok.mp h
      cases e
      subst h2
      exact ⟨v, rfl, via_read hx (fun _ _ => cpx_read)⟩
    · obtain ⟨x, hx, e⟩ := Res.bind_eq_ok.mp h
      cases e
      subst h3
      exact ⟨v, rfl, pair_read hx (fun _ _ => range_read) (fun _ _ h => via_read h (fun _ _ => cpx_read))⟩
    · cases v with
      | null =>
        cases h
        subst h4
        exact .inr rfl
      | _ => cases h

theorem amountProof_written (p : AmountProof S) : AmountProofIn L R writing p ((jAmountProof L R).ser p) := by
  cases p with
  | assetMix p => exact ⟨_, rfl, rfl⟩
  | confAmount p => exact ⟨_, rfl, range_written p⟩
  | confAsset p => exact ⟨_, rfl, cpx_written _⟩
  | confAll p q => exact ⟨_, rfl, _, _, rfl, range_written p, cpx_written _⟩
  | noProof => exact .inl rfl

theorem transfer_read {j : Json} {b : XfrBody S} (h : (jXfrBody L R lay).de j = .ok b) : TransferIn L R reading b j := by
  obtain ⟨⟨i, o, ⟨p, ⟨x, y, z, u⟩, u'⟩, m, k, u''⟩, hd, e⟩ := Res.bind_eq_ok.mp h
  cases e
  refine ⟨fun k hk v hv => ?_, fun k hk l hl v hv => ?_, fun k hk l hl v hv => ?_, fun k hk l hl v hv => ?_, fun v hv => ?_⟩
  · have h := m2! hd hk
    have h' := m0! h hv
    exact amountProof_read h'
  · have h := m2! hd hk
    have h' := m1! h hl
    have h'' := m0! h' hv
    exact vec_read h'' (fun _ _ h => via_read h (fun _ _ => peg_read))
  · have h := m2! hd hk
    have h' := m1! h hl
    have h'' := m1! h' hv
    exact vec_read h'' (fun _ _ h => vec_read h (fun _ _ h => option_read h (fun _ _ h => via_read h (fun _ _ => cac_read))))
  · have h := m2! hd hk
    have h' := m1! h hl
    have h'' := m2! h' hv
    exact vec_read h'' (fun _ _ h => vec_read h (fun _ _ h => option_read h (fun _ _ h => via_read h (fun _ _ => cac_read))))
  · have h := m3! hd hv
    exact vec_read h (fun _ _ h => vec_read h (fun _ _ => tracerMemo_read))

theorem transfer_written (b : XfrBody S) : TransferIn L R writing b ((jXfrBody L R lay).ser b) :=
  have ids : ∀ l, ListIn (ListIn (OptIn (writing.parts L.ipf R.ipf (CacIn writing)))) l ((jVec (jVec (jOption (jCac.via L.ipf R.ipf)))).ser l) :=
    vec_written (c := jVec (jOption (jCac.via L.ipf R.ipf))) (vec_written (c := jOption (jCac.via L.ipf R.ipf))
      (option_written (c := jCac.via L.ipf R.ipf) (fun _ => cac_written _)))
  ⟨⟨_, rfl, _, rfl, amountProof_written _⟩, ⟨_, rfl, _, rfl, _, rfl, vec_written (c := jPeg.via L.tpf R.tpf) (fun _ => peg_written _) _⟩,
    ⟨_, rfl, _, rfl, _, rfl, ids _⟩, ⟨_, rfl, _, rfl, _, rfl, ids _⟩,
    ⟨_, rfl, vec_written (c := jVec (jTracerMemo L R)) (vec_written (c := jTracerMemo L R) tracerMemo_written) _⟩⟩

/-- C112: The proofs of a transfer and its memos for tracers, in any document that the node takes for the transfer: the proof stands under the name of
its kind, the memos under the positions of their records. -/
theorem C112_transfer_parts_read (t : Bytes) (j : Json) (hj : parseJson t = some j) (n : XfrNote S)
    (h : fromJson (jXfrNote L R sg lay) t = .ok n) : reading.under j (ascii! "body") (TransferIn L R reading n.body) := by
  obtain ⟨⟨b, ⟨s, u⟩, u'⟩, hd, e⟩ := Res.bind_eq_ok.mp (parsed hj h)
  cases e
  intro v hv
  have h := m0! hd hv
  exact transfer_read h

/-- C112: and in what the node writes. -/
theorem C112_transfer_parts_written (hR : R.Of L sg) (hl : ∀ m, (lay m).Fits m) (n : XfrNote S) :
    ∃ j, parseJson (toJson (jXfrNote L R sg lay) n) = some j ∧ writing.under j (ascii! "body") (TransferIn L R writing n.body) :=
  ⟨_, written_parsed (good_xfrNote hR hl) (by decide) n, _, rfl, transfer_written n.body⟩

/-- C113: the identity proofs and the memos for tracers of a record with its policies -/
theorem C113_asset_record_parts_read {bF : Bytewise S.F} {G G1 G2 : Type} {bG : Bytewise G} {b1 : Bytewise G1} {b2 : Bytewise G2} (t : Bytes) (j : Json)
    (hj : parseJson t = some j) (o : FullRecord S G G1 G2) (h : fromJson (jFullRecord L R lay bF bG b1 b2) t = .ok o) :
    reading.under j (ascii! "identity_proofs") (ListIn (OptIn (reading.parts L.ipf R.ipf (CacIn reading))) o.identityProofs) ∧
    reading.under j (ascii! "asset_tracers_memos") (ListIn (TracerMemoIn L R reading) o.tracersMemos) := by
  obtain ⟨⟨a, b, c, d, f, u⟩, hd, e⟩ := Res.bind_eq_ok.mp (parsed hj h)
  cases e
  refine ⟨fun v hv => ?_, fun v hv => ?_⟩
  · have h := m2! hd hv
    exact vec_read h (fun _ _ h => option_read h (fun _ _ h => via_read h (fun _ _ => cac_read)))
  · have h := m3! hd hv
    exact vec_read h (fun _ _ => tracerMemo_read)

theorem C113_asset_record_parts_written {bF : Bytewise S.F} {G G1 G2 : Type} {bG : Bytewise G} {b1 : Bytewise G1} {b2 : Bytewise G2}
    (hR : R.Of L sg) (hl : ∀ m, (lay m).Fits m) (hF : bF.Good) (hG : bG.Good) (h1 : b1.Good) (h2 : b2.Good) (o : FullRecord S G G1 G2) :
    ∃ j, parseJson (toJson (jFullRecord L R lay bF bG b1 b2) o) = some j ∧
      writing.under j (ascii! "identity_proofs") (ListIn (OptIn (writing.parts L.ipf R.ipf (CacIn writing))) o.identityProofs) ∧
      writing.under j (ascii! "asset_tracers_memos") (ListIn (TracerMemoIn L R writing) o.tracersMemos) :=
  ⟨_, written_parsed (good_fullRecord hR hl hF hG h1 h2) (by decide) o,
    ⟨_, rfl, vec_written (c := jOption (jCac.via L.ipf R.ipf)) (option_written (c := jCac.via L.ipf R.ipf) (fun _ => cac_written _)) _⟩,
    ⟨_, rfl, vec_written (c := jTracerMemo L R) tracerMemo_written _⟩⟩

end

/-! ### The pool -/

section
variable {S : Types} {L : Leaves S} {R : Parse S} {sg : S.Sg → Bytes} {lay : WMemo → Layout} {K Pf A : Type} {bls : K → Bytes} {pf : Pf → WPlonk}
  {blsR : Bytes → Res K} {pfR : WPlonk → Res Pf} {Q P : SimFr.Params} {pt : S.G → Bytes} {sc : ZMod Q.r → Bytes} {ptR : Bytes → Res S.G}
  {scR : Bytes → Res (ZMod Q.r)} {G Mp : Type} {fpt : G → Bytes} {fsc : ZMod P.r → Bytes} {mul : Mp → Bytes} {fptR : Bytes → Res G}
  {fscR : Bytes → Res (ZMod P.r)} {mulR : Bytes → Res Mp} {apk : A → Bytes} {apkR : Bytes → Res A}

/-- a delegated Schnorr proof -/
structure SchnorrIn {F' G' K' : Type} (bK : Bytewise K') (bG : Bytewise G') (bF : Bytewise F') (V : View) (p : DelegatedSchnorr.Proof F' G' K')
    (j : Json) : Prop where
  comm : V.under j (ascii! "inspection_comm") (V.leaf bK p.comm)
  randomizers : V.under j (ascii! "randomizers") (ListIn (V.leaf bG) p.randomizers)
  responses : V.under j (ascii! "response_scalars") (ListIn (PairIn (V.leaf bF) (V.leaf bF)) p.responses)
  phantom : V.under j (ascii! "params_phantom") (fun k => k = .null)

/-- the part of a note that ties the anonymous key to the proof -/
structure FoldIn (bK : Bytewise K) (bG : Bytewise G) (bF : Bytewise (ZMod P.r)) (bM : Bytewise Mp) (V : View) (f : FoldInst P K G Mp) (j : Json) :
    Prop where
  schnorr : V.under j (ascii! "delegated_schnorr_proof") (SchnorrIn bK bG bF V f.schnorr)
  coms : V.under j (ascii! "scalar_mul_commitments") (ListIn (V.leaf bG) f.coms)
  mul : V.under j (ascii! "scalar_mul_proof") (V.leaf bM f.mul)

theorem schnorr_read {F' G' : Type} {bG : Bytewise G'} {bF : Bytewise F'} {j : Json} {p : DelegatedSchnorr.Proof F' G' K}
    (h : (jSchnorr bls blsR bG.write bF.write bG.read bF.read).de j = .ok p) : SchnorrIn ⟨bls, blsR⟩ bG bF reading p j := by
  obtain ⟨⟨a, b, c, d, u⟩, hd, e⟩ := Res.bind_eq_ok.mp h
  cases e
  refine ⟨fun v hv => ?_, fun v hv => ?_, fun v hv => ?_, fun v hv => ?_⟩
  · have h := m0! hd hv
    exact leaf_seen h
  · have h := m1! hd hv
    exact vec_read h (fun _ _ h => leaf_seen h)
  · have h := m2! hd hv
    exact vec_read h (fun _ _ h => pair_read h (fun _ _ h => leaf_seen h) (fun _ _ h => leaf_seen h))
  · have h := m3! hd hv
    cases v <;> first | rfl | cases h

theorem schnorr_written {F' G' : Type} {bG : Bytewise G'} {bF : Bytewise F'} (p : DelegatedSchnorr.Proof F' G' K) :
    SchnorrIn ⟨bls, blsR⟩ bG bF writing p ((jSchnorr bls blsR bG.write bF.write bG.read bF.read).ser p) :=
  ⟨⟨_, rfl, rfl⟩, ⟨_, rfl, vec_written (c := jLeaf bG.write bG.read) (P := writing.leaf bG) (fun _ => rfl) _⟩,
    ⟨_, rfl, vec_written (c := jPair (jLeaf bF.write bF.read) (jLeaf bF.write bF.read)) (P := PairIn (writing.leaf bF) (writing.leaf bF))
      (fun _ => ⟨_, _, rfl, rfl, rfl⟩) _⟩, ⟨_, rfl, rfl⟩⟩

theorem fold_read {j : Json} {f : FoldInst P K G Mp} (h : (jFold bls blsR fpt fsc mul fptR fscR mulR).de j = .ok f) :
    FoldIn ⟨bls, blsR⟩ ⟨fpt, fptR⟩ ⟨fsc, fscR⟩ ⟨mul, mulR⟩ reading f j := by
  obtain ⟨⟨a, b, c, u⟩, hd, e⟩ := Res.bind_eq_ok.mp h
  cases e
  refine ⟨fun v hv => ?_, fun v hv => ?_, fun v hv => ?_⟩
  · have h := m0! hd hv
    exact schnorr_read (bG := ⟨fpt, fptR⟩) (bF := ⟨fsc, fscR⟩) h
  · have h := m1! hd hv
    exact vec_read h (fun _ _ h => leaf_seen h)
  · have h := m2! hd hv
    exact leaf_seen h

theorem fold_written (f : FoldInst P K G Mp) :
    FoldIn ⟨bls, blsR⟩ ⟨fpt, fptR⟩ ⟨fsc, fscR⟩ ⟨mul, mulR⟩ writing f ((jFold bls blsR fpt fsc mul fptR fscR mulR).ser f) :=
  ⟨⟨_, rfl, schnorr_written (bG := ⟨fpt, fptR⟩) (bF := ⟨fsc, fscR⟩) _⟩,
    ⟨_, rfl, vec_written (c := jLeaf fpt fptR) (P := writing.leaf ⟨fpt, fptR⟩) (fun _ => rfl) _⟩, ⟨_, rfl, rfl⟩⟩

/-- C112: the proof of an anonymous transfer -/
theorem C112_anonymous_parts_read (t : Bytes) (j : Json) (hj : parseJson t = some j) (n : Anon.XfrNote P K A Pf G Mp)
    (h : fromJson (jAXfrNote bls pf blsR pfR fpt fsc mul fptR fscR mulR apk apkR) t = .ok n) :
    reading.under j (ascii! "proof") (reading.parts pf pfR (PlonkIn reading) n.proof) ∧
    reading.under j (ascii! "folding_instance") (FoldIn ⟨bls, blsR⟩ ⟨fpt, fptR⟩ ⟨fsc, fscR⟩ ⟨mul, mulR⟩ reading n.folding) := by
  obtain ⟨⟨b, p, f, u⟩, hd, e⟩ := Res.bind_eq_ok.mp (parsed hj h)
  cases e
  refine ⟨fun v hv => ?_, fun v hv => ?_⟩
  · have h := m1! hd hv
    exact via_read h (fun _ _ => plonk_read)
  · have h := m2! hd hv
    exact fold_read h

/-- C112: the proof of a note into the pool -/
theorem C112_ar_to_abar_parts_read (t : Bytes) (j : Json) (hj : parseJson t = some j) (n : ArToAbarNote S K Pf)
    (h : fromJson (jArToAbarNote L R sg bls pf blsR pfR) t = .ok n) :
    reading.under j (ascii! "body") (fun b => reading.under b (ascii! "proof") (reading.parts pf pfR (PlonkIn reading) n.body.proof)) := by
  obtain ⟨⟨b, s, u⟩, hd, e⟩ := Res.bind_eq_ok.mp (parsed hj h)
  cases e
  intro w hw v hv
  have h := m0! hd hw
  obtain ⟨⟨x1, x2, x3, x4, u⟩, hb, e⟩ := Res.bind_eq_ok.mp h
  cases e
  have h := m2! hb hv
  exact via_read h (fun _ _ => plonk_read)

/-- C112: the two proofs of a note that leads a confidential record into the pool -/
theorem C112_bar_to_abar_parts_read (t : Bytes) (j : Json) (hj : parseJson t = some j) (n : BarToAbarNote S Q K Pf)
    (h : fromJson (jBarToAbarNote L R sg bls pf blsR pfR pt sc ptR scR) t = .ok n) :
    reading.under j (ascii! "body") (fun b => reading.under b (ascii! "proof")
      (PairIn (SchnorrIn ⟨bls, blsR⟩ ⟨pt, ptR⟩ ⟨sc, scR⟩ reading) (reading.parts pf pfR (PlonkIn reading)) (n.body.schnorr, n.body.proof))) := by
  obtain ⟨⟨b, s, u⟩, hd, e⟩ := Res.bind_eq_ok.mp (parsed hj h)
  cases e
  intro w hw v hv
  have h := m0! hd hw
  obtain ⟨⟨x1, x2, ⟨x3, x4⟩, x5, u⟩, hb, e⟩ := Res.bind_eq_ok.mp h
  cases e
  have h := m2! hb hv
  exact pair_read h (fun _ _ h => schnorr_read (bG := ⟨pt, ptR⟩) (bF := ⟨sc, scR⟩) h) (fun _ _ h => via_read h (fun _ _ => plonk_read))

/-- C112: the proof of a note out of the pool -/
theorem C112_abar_to_ar_parts_read (t : Bytes) (j : Json) (hj : parseJson t = some j) (n : AbarToArNote S P K Pf G Mp × UInt64 × Option S.OM)
    (h : fromJson (jAbarToArNote L R lay bls pf blsR pfR fpt fsc mul fptR fscR mulR) t = .ok n) :
    reading.under j (ascii! "proof") (reading.parts pf pfR (PlonkIn reading) n.1.proof) ∧
    reading.under j (ascii! "folding_instance") (FoldIn ⟨bls, blsR⟩ ⟨fpt, fptR⟩ ⟨fsc, fscR⟩ ⟨mul, mulR⟩ reading n.1.folding) := by
  obtain ⟨⟨⟨i, o, r, ve, m, u⟩, p, f, u'⟩, hd, e⟩ := Res.bind_eq_ok.mp (parsed hj h)
  cases e
  refine ⟨fun v hv => ?_, fun v hv => ?_⟩
  · have h := m1! hd hv
    exact via_read h (fun _ _ => plonk_read)
  · have h := m2! hd hv
    exact fold_read h

/-- C112: the proofs of a note that pays out to a confidential record -/
theorem C112_abar_to_bar_parts_read (t : Bytes) (j : Json) (hj : parseJson t = some j) (n : AbarToBarNote S P Q K Pf G Mp × UInt64 × Option S.OM)
    (h : fromJson (jAbarToBarNote L R lay bls pf blsR pfR pt sc ptR scR fpt fsc mul fptR fscR mulR) t = .ok n) :
    reading.under j (ascii! "proof") (reading.parts pf pfR (PlonkIn reading) n.1.proof) ∧
    reading.under j (ascii! "folding_instance") (FoldIn ⟨bls, blsR⟩ ⟨fpt, fptR⟩ ⟨fsc, fscR⟩ ⟨mul, mulR⟩ reading n.1.folding) ∧
    reading.under j (ascii! "body") (fun b => reading.under b (ascii! "delegated_schnorr_proof")
      (SchnorrIn ⟨bls, blsR⟩ ⟨pt, ptR⟩ ⟨sc, scR⟩ reading n.1.schnorr)) := by
  obtain ⟨⟨⟨i, o, s, r, ve, m, u⟩, p, f, u'⟩, hd, e⟩ := Res.bind_eq_ok.mp (parsed hj h)
  cases e
  refine ⟨fun v hv => ?_, fun v hv => ?_, fun w hw v hv => ?_⟩
  · have h := m1! hd hv
    exact via_read h (fun _ _ => plonk_read)
  · have h := m2! hd hv
    exact fold_read h
  · have h := m0! hd hw
    have h' := m2! h hv
    exact schnorr_read (bG := ⟨pt, ptR⟩) (bF := ⟨sc, scR⟩) h'

/-- C112: The proofs in what the node writes. -/
theorem C112_pool_parts_written (hR : R.Of L sg) (hl : ∀ m, (lay m).Fits m) (hb : ∀ x, blsR (bls x) = .ok x) (hp : ∀ x, pfR (pf x) = .ok x)
    (ht : ∀ x, ptR (pt x) = .ok x) (hs : ∀ x, scR (sc x) = .ok x) (hft : ∀ x, fptR (fpt x) = .ok x) (hfs : ∀ x, fscR (fsc x) = .ok x)
    (hmul : ∀ x, mulR (mul x) = .ok x) (ha : ∀ x, apkR (apk x) = .ok x) :
    (∀ n : Anon.XfrNote P K A Pf G Mp, ∃ j, parseJson (toJson (jAXfrNote bls pf blsR pfR fpt fsc mul fptR fscR mulR apk apkR) n) = some j ∧
      writing.under j (ascii! "proof") (PlonkIn writing (pf n.proof)) ∧
      writing.under j (ascii! "folding_instance") (FoldIn ⟨bls, blsR⟩ ⟨fpt, fptR⟩ ⟨fsc, fscR⟩ ⟨mul, mulR⟩ writing n.folding)) ∧
    (∀ n : ArToAbarNote S K Pf, ∃ j, parseJson (toJson (jArToAbarNote L R sg bls pf blsR pfR) n) = some j ∧
      writing.under j (ascii! "body") (fun b => writing.under b (ascii! "proof") (PlonkIn writing (pf n.body.proof)))) ∧
    (∀ n : BarToAbarNote S Q K Pf, ∃ j, parseJson (toJson (jBarToAbarNote L R sg bls pf blsR pfR pt sc ptR scR) n) = some j ∧
      writing.under j (ascii! "body") (fun b => writing.under b (ascii! "proof")
        (PairIn (SchnorrIn ⟨bls, blsR⟩ ⟨pt, ptR⟩ ⟨sc, scR⟩ writing) (PlonkIn writing) (n.body.schnorr, pf n.body.proof)))) ∧
    (∀ n : AbarToArNote S P K Pf G Mp × UInt64 × Option S.OM,
      ∃ j, parseJson (toJson (jAbarToArNote L R lay bls pf blsR pfR fpt fsc mul fptR fscR mulR) n) = some j ∧
      writing.under j (ascii! "proof") (PlonkIn writing (pf n.1.proof)) ∧
      writing.under j (ascii! "folding_instance") (FoldIn ⟨bls, blsR⟩ ⟨fpt, fptR⟩ ⟨fsc, fscR⟩ ⟨mul, mulR⟩ writing n.1.folding)) ∧
    (∀ n : AbarToBarNote S P Q K Pf G Mp × UInt64 × Option S.OM,
      ∃ j, parseJson (toJson (jAbarToBarNote L R lay bls pf blsR pfR pt sc ptR scR fpt fsc mul fptR fscR mulR) n) = some j ∧
      writing.under j (ascii! "proof") (PlonkIn writing (pf n.1.proof)) ∧
      writing.under j (ascii! "folding_instance") (FoldIn ⟨bls, blsR⟩ ⟨fpt, fptR⟩ ⟨fsc, fscR⟩ ⟨mul, mulR⟩ writing n.1.folding) ∧
      writing.under j (ascii! "body") (fun b => writing.under b (ascii! "delegated_schnorr_proof")
        (SchnorrIn ⟨bls, blsR⟩ ⟨pt, ptR⟩ ⟨sc, scR⟩ writing n.1.schnorr))) :=
  ⟨fun n => ⟨_, written_parsed (good_axfrNote hb hp hft hfs hmul ha) (by decide) n, ⟨_, rfl, plonk_written _⟩, ⟨_, rfl, fold_written _⟩⟩,
    fun n => ⟨_, written_parsed (good_arToAbarNote hR hb hp) (by decide) n, _, rfl, _, rfl, plonk_written _⟩,
    fun n => ⟨_, written_parsed (good_barToAbarNote hR hb hp ht hs) (by decide) n, _, rfl, _, rfl, _, _, rfl,
      schnorr_written (bG := ⟨pt, ptR⟩) (bF := ⟨sc, scR⟩) _, plonk_written _⟩,
    fun n => ⟨_, written_parsed (good_abarToArNote hR hl hb hp hft hfs hmul) (by decide) n, ⟨_, rfl, plonk_written _⟩, ⟨_, rfl, fold_written _⟩⟩,
    fun n => ⟨_, written_parsed (good_abarToBarNote hR hl hb hp ht hs hft hfs hmul) (by decide) n, ⟨_, rfl, plonk_written _⟩,
      ⟨_, rfl, fold_written _⟩, _, rfl, _, rfl, schnorr_written (bG := ⟨pt, ptR⟩) (bF := ⟨sc, scR⟩) _⟩⟩

end

end Verif.Serde
