import Verif.Serde.ReadBodies

/-!
What was written is read back, part by part.
-/

namespace Verif.Serde

open Verif.Xfr (Types XfrAmount XfrAssetType BlindAssetRecord TracerMemo RangeProof AmountProof XfrBody XfrNote KeyType Wire)
open Verif.Anon (ArToAbarBody BarToAbarBody ArToAbarNote BarToAbarNote AbarToArNote AbarToBarNote FoldInst)

/-- a part of an encoding is shorter than the encoding -/
local macro "blen" : tactic => `(tactic| first | omega | (beta_reduce; omega))

section
variable {F : Format} {I : Input} (hF : F.Lawful) (hP : Paired F I)

include hP

theorem reads_leaf {α : Type} {f : α → Bytes} {p : Bytes → Res α} (h : ∀ x, p (f x) = .ok x) :
    Reads (fun x => F.bytes (f x)) (readLeaf I p) := by
  intro x r hl
  unfold readLeaf
  rw [bind_of (hP.bytes _ _ hl), lift_ok (h x)]

omit hP in
theorem reads_map {α β : Type} {enc : β → Bytes} {rd : Reader β} (hR : Reads enc rd) {f : α → β} {p : β → Res α}
    (h : ∀ x, p (f x) = .ok x) : Reads (fun x => enc (f x)) (readMap rd p) := by
  intro x r hl
  unfold readMap
  rw [bind_of (hR _ _ hl), lift_ok (h x)]

theorem reads_cp : Reads (serCp F) (readCp I) := by
  rintro ⟨a1, a2, a3, a4, a5⟩ r h
  simp only [serCp, List.length_append] at h
  simp only [serCp, readCp, List.append_assoc]
  rw [bind_of (hP.tuple _ _ (by norm_num)), bind_of (hP.bytes _ _ (by blen)), bind_of (hP.bytes _ _ (by blen)),
    bind_of (hP.bytes _ _ (by blen)), bind_of (hP.bytes _ _ (by blen)), bind_of (hP.bytes _ _ (by blen)), pure_of]

theorem reads_cpx : Reads (serCpx F) (readCpx I) := by
  rintro ⟨a1, a2⟩ r h
  simp only [serCpx, List.length_append] at h
  simp only [serCpx, readCpx, List.append_assoc]
  rw [bind_of (hP.tuple _ _ (by norm_num)), bind_of (reads_cp hP _ _ (by blen)),
    bind_of (reads_option hP headed_cp (reads_cp hP) _ _ (by blen)), pure_of]

theorem reads_peg : Reads (serPeg F) (readPeg I) := by
  rintro ⟨a1, a2, a3, a4⟩ r h
  simp only [serPeg, List.length_append] at h
  simp only [serPeg, readPeg, List.append_assoc]
  rw [bind_of (hP.tuple _ _ (by norm_num)), bind_of (hP.bytes _ _ (by blen)), bind_of (hP.bytes _ _ (by blen)),
    bind_of (hP.bytes _ _ (by blen)), bind_of (hP.bytes _ _ (by blen)), pure_of]

theorem reads_ct : Reads (serCt F) (readCt I) := by
  rintro ⟨a1, a2⟩ r h
  simp only [serCt, List.length_append] at h
  simp only [serCt, readCt, List.append_assoc]
  rw [bind_of (hP.tuple _ _ (by norm_num)), bind_of (hP.bytes _ _ (by blen)), bind_of (hP.bytes _ _ (by blen)), pure_of]

include hF

theorem reads_vecBytes : Reads (serVec F F.bytes) (readVec I I.bytes) := reads_vec hP (nonNil_bytes hF) hP.bytes

theorem reads_vecU8 : Reads (serVec F F.u8) (readVec I I.u8) := reads_vec hP (nonNil_u8 hF) (fun a r _ => hP.u8 a r)

theorem reads_pok : Reads (serPok F) (readPok I) := by
  rintro ⟨a1, a2, a3, a4⟩ r h
  simp only [serPok, List.length_append] at h
  simp only [serPok, readPok, List.append_assoc]
  rw [bind_of (hP.tuple _ _ (by norm_num)), bind_of (hP.bytes _ _ (by blen)), bind_of (hP.bytes _ _ (by blen)),
    bind_of (hP.bytes _ _ (by blen)), bind_of (reads_vecBytes hF hP _ _ (by blen)), pure_of]

theorem reads_cac : Reads (serCac F) (readCac I) := by
  rintro ⟨a1, a2, a3⟩ r h
  simp only [serCac, List.length_append] at h
  simp only [serCac, readCac, List.append_assoc]
  rw [bind_of (hP.tuple _ _ (by norm_num)), bind_of (reads_pok hF hP _ _ (by blen)),
    bind_of (reads_vec hP (nonNil_ct hF) (reads_ct hP) _ _ (by blen)), bind_of (reads_vecBytes hF hP _ _ (by blen)), pure_of]

theorem reads_plonk : Reads (serPlonk F) (readPlonk I) := by
  rintro ⟨a1, a2, a3, a4, a5, a6, a7, a8⟩ r h
  simp only [serPlonk, List.length_append] at h
  simp only [serPlonk, readPlonk, List.append_assoc]
  rw [bind_of (hP.tuple _ _ (by norm_num)), bind_of (reads_vecBytes hF hP _ _ (by blen)),
    bind_of (reads_vecBytes hF hP _ _ (by blen)), bind_of (hP.bytes _ _ (by blen)), bind_of (reads_vecBytes hF hP _ _ (by blen)),
    bind_of (hP.bytes _ _ (by blen)), bind_of (reads_vecBytes hF hP _ _ (by blen)), bind_of (hP.bytes _ _ (by blen)),
    bind_of (hP.bytes _ _ (by blen)), pure_of]

theorem reads_axfrMemo : Reads (serAxfrMemo F) (readAxfrMemo I) := by
  rintro ⟨a1, a2⟩ r h
  simp only [serAxfrMemo, List.length_append] at h
  simp only [serAxfrMemo, readAxfrMemo, List.append_assoc]
  rw [bind_of (hP.tuple _ _ (by norm_num)), bind_of (hP.bytes _ _ (by blen)), bind_of (reads_vecU8 hF hP _ _ (by blen)), pure_of]

variable {S : Types} {L : Leaves S} {sg : S.Sg → Bytes} {R : Parse S} (hR : R.Of L sg)

include hR

omit hF

omit hR in
theorem reads_conf (r : Bytes) : I.variant confTable (F.variant true 0 confName ++ r) = .ok (0, r) :=
  hP.variant confTable 0 _ true r (by decide) (by decide) (by decide) rfl

omit hR in
theorem reads_nonConf (r : Bytes) : I.variant confTable (F.variant true 1 nonConfName ++ r) = .ok (1, r) :=
  hP.variant confTable 1 _ true r (by decide) (by decide) (by decide) rfl

omit hR in
theorem reads_proofName (i : Nat) (d : Bool) (b : Bytes) (h : proofTable[i]? = some (b, d)) (r : Bytes) :
    I.variant proofTable (F.variant d i b ++ r) = .ok (i, r) :=
  hP.variant proofTable i _ _ r (by decide) (by decide) (by decide) h

theorem reads_amount : Reads (serAmount F L) (readAmount I R) := by
  rintro (⟨a1, a2⟩ | a) r h
  · simp only [serAmount, List.length_append] at h
    simp only [serAmount, readAmount, List.append_assoc]
    rw [bind_of (reads_conf hP _), if_pos rfl, bind_of (hP.tuple _ _ (by norm_num)),
      bind_of (reads_leaf hP hR.cg a1 _ (by blen)), bind_of (reads_leaf hP hR.cg a2 _ (by blen)), pure_of]
  · simp only [serAmount, List.length_append] at h
    simp only [serAmount, readAmount, List.append_assoc]
    rw [bind_of (reads_nonConf hP _), if_neg (by norm_num), bind_of (hP.str _ _ (by blen)),
      bind_of (lift_ok (by rw [parseU64_decimal]; rfl) _), pure_of]

omit hR in
theorem reads_array32 (b : { b : Bytes // b.length = 32 }) (r : Bytes) (h : (b.1.flatMap F.u8).length < 2 ^ 32) :
    readArray32 I (F.tuple 32 ++ (b.1.flatMap F.u8 ++ r)) = .ok (b, r) := by
  obtain ⟨b, hb⟩ := b
  unfold readArray32
  have e := readN_of (rd := I.u8) b r (fun a _ r _ => hP.u8 a r) h
  rw [hb] at e
  rw [bind_of (hP.tuple _ _ (by norm_num)), bind_of e, dif_pos hb, pure_of]

theorem reads_assetType : Reads (serAssetType F L) (readAssetType I R) := by
  rintro (c | t) r h
  · simp only [serAssetType, List.length_append] at h
    simp only [serAssetType, readAssetType, List.append_assoc]
    rw [bind_of (reads_conf hP _), if_pos rfl, bind_of (reads_leaf hP hR.cg c _ (by blen)), pure_of]
  · simp only [serAssetType, List.length_append] at h
    simp only [serAssetType, readAssetType, List.append_assoc]
    rw [bind_of (reads_nonConf hP _), if_neg (by norm_num), bind_of (reads_array32 hP _ _ (by blen)), pure_of,
      hR.at']

theorem reads_bar : Reads (serBar F L) (readBar I R) := by
  rintro ⟨a, t, k⟩ r h
  simp only [serBar, List.length_append] at h
  simp only [serBar, readBar, List.append_assoc]
  rw [bind_of (hP.tuple _ _ (by norm_num)), bind_of (reads_amount hP hR _ _ (by blen)),
    bind_of (reads_assetType hP hR _ _ (by blen)), bind_of (reads_leaf hP hR.pk k _ (by blen)), pure_of]

theorem reads_ctPair : Reads (fun c : S.Ct × S.Ct => F.tuple 2 ++ (serCt F (L.ct c.1) ++ serCt F (L.ct c.2))) (readCtPair I R) := by
  rintro ⟨a, b⟩ r h
  simp only [List.length_append] at h
  simp only [readCtPair, List.append_assoc]
  rw [bind_of (hP.tuple _ _ (by norm_num)), bind_of (reads_map (reads_ct hP) hR.ct a _ (by blen)),
    bind_of (reads_map (reads_ct hP) hR.ct b _ (by blen)), pure_of]

include hF

theorem reads_tracerMemo : Reads (serTracerMemo F L) (readTracerMemo I R) := by
  rintro ⟨a1, a2, a3, a4, a5, a6, a7, a8⟩ r h
  simp only [serTracerMemo, List.length_append] at h
  simp only [serTracerMemo, readTracerMemo, List.append_assoc]
  rw [bind_of (hP.tuple _ _ (by norm_num)), bind_of (hP.tuple _ _ (by norm_num)), bind_of (reads_leaf hP hR.ek a1 _ (by blen)),
    bind_of (hP.bytes _ _ (by blen)), bind_of (hP.bytes _ _ (by blen)),
    bind_of (reads_option hP (fun _ => ⟨_, _, rfl⟩) (reads_ctPair hP hR) _ _ (by blen)),
    bind_of (reads_option (enc := fun c => serCt F (L.ct c)) hP (fun _ => ⟨_, _, rfl⟩) (reads_map (reads_ct hP) hR.ct) _ _ (by blen)),
    bind_of (reads_vec hP (fun _ => nonNil_ct hF _) (reads_map (reads_ct hP) hR.act) _ _ (by blen)),
    bind_of (hP.tuple _ _ (by norm_num)), bind_of (hP.bytes _ _ (by blen)), bind_of (hP.bytes _ _ (by blen)), pure_of]

omit hF in
theorem reads_rangeProof : Reads (serRangeProof F L) (readRangeProof I R) := by
  rintro ⟨p, a, b⟩ r h
  simp only [serRangeProof, List.length_append] at h
  simp only [serRangeProof, readRangeProof, List.append_assoc]
  rw [bind_of (hP.tuple _ _ (by norm_num)), bind_of (reads_leaf hP hR.rp p _ (by blen)),
    bind_of (reads_leaf hP hR.cg a _ (by blen)), bind_of (reads_leaf hP hR.cg b _ (by blen)), pure_of]

omit hF in
theorem reads_amountProof : Reads (serAmountProof F L) (readAmountProof I R) := by
  rintro (p | p | p | ⟨p, q⟩ | _) r h
  all_goals simp only [serAmountProof, List.length_append] at h
  all_goals simp only [serAmountProof, readAmountProof, List.append_assoc]
  · rw [bind_of (reads_proofName hP 0 true _ rfl _)]
    change (_ >>= _ : Reader _) _ = _
    rw [bind_of (reads_leaf hP hR.mp p _ (by blen)), pure_of]
  · rw [bind_of (reads_proofName hP 1 true _ rfl _)]
    change (_ >>= _ : Reader _) _ = _
    rw [bind_of (reads_rangeProof hP hR p _ (by blen)), pure_of]
  · rw [bind_of (reads_proofName hP 2 true _ rfl _)]
    change (_ >>= _ : Reader _) _ = _
    rw [bind_of (reads_map (reads_cpx hP) hR.ap p _ (by blen)), pure_of]
  · rw [bind_of (reads_proofName hP 3 true _ rfl _)]
    change (_ >>= _ : Reader _) _ = _
    rw [bind_of (hP.tuple _ _ (by norm_num)), bind_of (reads_rangeProof hP hR p _ (by blen)),
      bind_of (reads_map (reads_cpx hP) hR.ap q _ (by blen)), pure_of]
  · rw [bind_of (reads_proofName hP 4 false _ rfl _)]
    rfl

theorem reads_identity : Reads (serIdentity F L) (readIdentity I R) :=
  reads_vec hP (nonNil_vec hF) (reads_vec hP (nonNil_option hF (fun _ => nonNil_cac hF _))
    (reads_option (enc := fun c => serCac F (L.ipf c)) hP (fun _ => ⟨_, _, rfl⟩) (reads_map (reads_cac hF hP) hR.ipf)))

omit hF in
theorem reads_ownerMemo (o : Option S.OM) (r : Bytes)
    (hM : ∀ m, o = some m → ∀ r, (serMemo F (L.om m)).length < 2 ^ 32 → readMemo I R.b64 (serMemo F (L.om m) ++ r) = .ok (L.om m, r))
    (hl : (serOwnerMemo F L o).length < 2 ^ 32) : readOwnerMemo I R (serOwnerMemo F L o ++ r) = .ok (o, r) := by
  refine reads_option_of (enc := fun m => serMemo F (L.om m)) hP (fun _ => ⟨_, _, rfl⟩) o r (fun m hm r hl => ?_) hl
  unfold readMap
  rw [bind_of (hM m hm r hl), lift_ok (hR.om m)]

/-- a transfer body, if its owner memos are read back -/
theorem reads_xfrBody (b : XfrBody S) (r : Bytes)
    (hM : ∀ m, some m ∈ b.ownersMemos → ∀ r, (serMemo F (L.om m)).length < 2 ^ 32 →
      readMemo I R.b64 (serMemo F (L.om m) ++ r) = .ok (L.om m, r))
    (h : (serXfrBody F L b).length < 2 ^ 32) : readXfrBody I R (serXfrBody F L b ++ r) = .ok (b, r) := by
  obtain ⟨a1, a2, a3, a4, a5, a6, a7, a8⟩ := b
  simp only [serXfrBody, List.length_append] at h
  simp only [serXfrBody, readXfrBody, List.append_assoc]
  rw [bind_of (hP.tuple _ _ (by norm_num)), bind_of (reads_vec hP (nonNil_bar hF) (reads_bar hP hR) _ _ (by blen)),
    bind_of (reads_vec hP (nonNil_bar hF) (reads_bar hP hR) _ _ (by blen)), bind_of (hP.tuple _ _ (by norm_num)),
    bind_of (reads_amountProof hP hR _ _ (by blen)), bind_of (hP.tuple _ _ (by norm_num)),
    bind_of (reads_vec hP (fun _ => nonNil_peg hF _) (reads_map (reads_peg hP) hR.tpf) _ _ (by blen)),
    bind_of (reads_identity hF hP hR _ _ (by blen)), bind_of (reads_identity hF hP hR _ _ (by blen)),
    bind_of (reads_vec hP (nonNil_vec hF) (reads_vec hP (nonNil_tracerMemo hF) (reads_tracerMemo hF hP hR)) _ _ (by blen)),
    bind_of (reads_vec_of (rd := readOwnerMemo I R) hP (nonNil_option hF (fun _ => nonNil_memo hF _)) a8 _
      (fun o ho r hl => reads_ownerMemo hP hR o r (fun m hm => hM m (hm ▸ ho)) hl) (by blen)), pure_of]

theorem reads_xfrNote (n : XfrNote S) (r : Bytes)
    (hM : ∀ m, some m ∈ n.body.ownersMemos → ∀ r, (serMemo F (L.om m)).length < 2 ^ 32 →
      readMemo I R.b64 (serMemo F (L.om m) ++ r) = .ok (L.om m, r))
    (h : (serXfrNote F L sg n).length < 2 ^ 32) : readXfrNote I R (serXfrNote F L sg n ++ r) = .ok (n, r) := by
  obtain ⟨b, s⟩ := n
  simp only [serXfrNote, List.length_append] at h
  simp only [serXfrNote, readXfrNote, List.append_assoc]
  rw [bind_of (hP.tuple _ _ (by norm_num)), bind_of (reads_xfrBody hF hP hR b _ hM (by blen)), bind_of (hP.tuple _ _ (by norm_num)),
    bind_of (reads_vec hP (fun _ => nonNil_bytes hF _) (reads_leaf hP hR.sg) _ _ (by blen)), pure_of]

variable {K Pf : Type} {bls : K → Bytes} {pf : Pf → WPlonk} {blsR : Bytes → Res K} {pfR : WPlonk → Res Pf}
  (hb : ∀ x, blsR (bls x) = .ok x) (hp : ∀ x, pfR (pf x) = .ok x)

include hb

omit hF hR in
theorem reads_abar : Reads (fun x => F.tuple 1 ++ F.bytes (bls x)) (readAbar I blsR) := by
  intro x r h
  simp only [List.length_append] at h
  simp only [readAbar, List.append_assoc]
  rw [bind_of (hP.tuple _ _ (by norm_num)), reads_leaf hP hb x _ (by blen)]

include hp

theorem reads_arToAbarBody : Reads (serArToAbar F L bls pf) (readArToAbarBody I R blsR pfR) := by
  rintro ⟨i, o, p, m⟩ r h
  simp only [serArToAbar, List.length_append] at h
  simp only [serArToAbar, readArToAbarBody, List.append_assoc]
  have ho := reads_abar hP hb o (serPlonk F (pf p) ++ (serAxfrMemo F m ++ r)) (by simp only [List.length_append]; omega)
  simp only [List.append_assoc] at ho
  rw [bind_of (hP.tuple _ _ (by norm_num)), bind_of (reads_bar hP hR _ _ (by blen)), bind_of ho,
    bind_of (reads_map (reads_plonk hF hP) hp p _ (by blen)), bind_of (reads_axfrMemo hF hP _ _ (by blen)), pure_of]

theorem reads_arToAbarNote : Reads (serArToAbarNote F L sg bls pf) (readArToAbarNote I R blsR pfR) := by
  rintro ⟨b, s⟩ r h
  simp only [serArToAbarNote, List.length_append] at h
  simp only [serArToAbarNote, readArToAbarNote, List.append_assoc]
  rw [bind_of (hP.tuple _ _ (by norm_num)), bind_of (reads_arToAbarBody hF hP hR hb hp b _ (by blen)),
    bind_of (reads_leaf hP hR.sg s _ (by blen)), pure_of]

omit hR hp in
theorem reads_schnorr {G E : Type} {pt : G → Bytes} {sc : E → Bytes} {ptR : Bytes → Res G} {scR : Bytes → Res E}
    (ht : ∀ x, ptR (pt x) = .ok x) (hs : ∀ x, scR (sc x) = .ok x) : Reads (serSchnorrOf F bls pt sc) (readSchnorr I blsR ptR scR) := by
  have h1 : Reads (fun e : E × E => F.tuple 2 ++ (F.bytes (sc e.1) ++ F.bytes (sc e.2))) (do
      I.tuple 2
      let a ← readLeaf I scR
      let b ← readLeaf I scR
      pure (a, b)) := by
    rintro ⟨a, b⟩ r h
    simp only [List.length_append] at h
    simp only [List.append_assoc]
    rw [bind_of (hP.tuple _ _ (by norm_num)), bind_of (reads_leaf hP hs a _ (by blen)), bind_of (reads_leaf hP hs b _ (by blen)), pure_of]
  have n1 : NonNil (fun e : E × E => F.tuple 2 ++ (F.bytes (sc e.1) ++ F.bytes (sc e.2))) := fun e h => by
    simp only [List.append_eq_nil_iff] at h
    exact nonNil_bytes hF _ h.2.1
  rintro ⟨c, l, e⟩ r h
  simp only [serSchnorrOf, List.length_append] at h
  simp only [serSchnorrOf, readSchnorr, List.append_assoc]
  rw [bind_of (hP.tuple _ _ (by norm_num)), bind_of (reads_leaf hP hb c _ (by blen)),
    bind_of (reads_vec hP (fun _ => nonNil_bytes hF _) (reads_leaf hP ht) _ _ (by blen)),
    bind_of (reads_vec hP n1 h1 _ _ (by blen)), bind_of (hP.unitStruct _), pure_of]

variable {Q : SimFr.Params} {pt : S.G → Bytes} {sc : ZMod Q.r → Bytes} {ptR : Bytes → Res S.G} {scR : Bytes → Res (ZMod Q.r)}
  (ht : ∀ x, ptR (pt x) = .ok x) (hs : ∀ x, scR (sc x) = .ok x)

include ht hs

theorem reads_barToAbarBody : Reads (serBarToAbar F L bls pf pt sc) (readBarToAbarBody I R blsR pfR ptR scR) := by
  rintro ⟨i, o, s, p, m⟩ r h
  have hsch : serSchnorr F bls pt sc s = serSchnorrOf F bls pt sc s := rfl
  simp only [serBarToAbar, List.length_append, hsch] at h
  simp only [serBarToAbar, readBarToAbarBody, List.append_assoc, hsch]
  have ho := reads_abar hP hb o (F.tuple 2 ++ (serSchnorrOf F bls pt sc s ++ (serPlonk F (pf p) ++ (serAxfrMemo F m ++ r))))
    (by simp only [List.length_append]; omega)
  simp only [List.append_assoc] at ho
  rw [bind_of (hP.tuple _ _ (by norm_num)), bind_of (reads_bar hP hR _ _ (by blen)), bind_of ho, bind_of (hP.tuple _ _ (by norm_num)),
    bind_of (reads_schnorr hF hP hb ht hs s _ (by blen)),
    bind_of (reads_map (reads_plonk hF hP) hp p _ (by blen)), bind_of (reads_axfrMemo hF hP _ _ (by blen)), pure_of]

theorem reads_barToAbarNote : Reads (serBarToAbarNote F L sg bls pf pt sc) (readBarToAbarNote I R blsR pfR ptR scR) := by
  rintro ⟨b, s⟩ r h
  simp only [serBarToAbarNote, List.length_append] at h
  simp only [serBarToAbarNote, readBarToAbarNote, List.append_assoc]
  rw [bind_of (hP.tuple _ _ (by norm_num)), bind_of (reads_barToAbarBody hF hP hR hb hp ht hs b _ (by blen)),
    bind_of (reads_leaf hP hR.sg s _ (by blen)), pure_of]

variable {P : SimFr.Params} {G Mp : Type} {fpt : G → Bytes} {fsc : ZMod P.r → Bytes} {mul : Mp → Bytes} {fptR : Bytes → Res G}
  {fscR : Bytes → Res (ZMod P.r)} {mulR : Bytes → Res Mp} (hft : ∀ x, fptR (fpt x) = .ok x) (hfs : ∀ x, fscR (fsc x) = .ok x)
  (hmul : ∀ x, mulR (mul x) = .ok x)

include hft hfs hmul

omit hR hp ht hs in
theorem reads_fold : Reads (serFold F bls fpt fsc mul) (readFold I blsR fptR fscR mulR) := by
  rintro ⟨s, c, m⟩ r h
  simp only [serFold, List.length_append] at h
  simp only [serFold, readFold, List.append_assoc]
  rw [bind_of (hP.tuple _ _ (by norm_num)), bind_of (reads_schnorr hF hP hb hft hfs s _ (by blen)),
    bind_of (reads_vec hP (fun _ => nonNil_bytes hF _) (reads_leaf hP hft) _ _ (by blen)),
    bind_of (reads_leaf hP hmul m _ (by blen)), pure_of]

omit ht hs in
theorem reads_abarToArNote (n : AbarToArNote S P K Pf G Mp × UInt64 × Option S.OM) (r : Bytes)
    (hM : ∀ m, n.2.2 = some m → ∀ r, (serMemo F (L.om m)).length < 2 ^ 32 →
      readMemo I R.b64 (serMemo F (L.om m) ++ r) = .ok (L.om m, r))
    (h : (serAbarToArNote F L bls pf fpt fsc mul n).length < 2 ^ 32) :
    readAbarToArNote I R blsR pfR fptR fscR mulR (serAbarToArNote F L bls pf fpt fsc mul n ++ r) = .ok (n, r) := by
  obtain ⟨⟨i, o, t, p, f⟩, v, m⟩ := n
  simp only [serAbarToArNote, List.length_append] at h
  simp only [serAbarToArNote, readAbarToArNote, List.append_assoc]
  rw [bind_of (hP.tuple _ _ (by norm_num)), bind_of (hP.tuple _ _ (by norm_num)), bind_of (reads_leaf hP hb i _ (by blen)),
    bind_of (reads_bar hP hR _ _ (by blen)), bind_of (reads_leaf hP hb t _ (by blen)), bind_of (hP.u64 _ _),
    bind_of (reads_ownerMemo hP hR m _ hM (by blen)), bind_of (reads_map (reads_plonk hF hP) hp p _ (by blen)),
    bind_of (reads_fold hF hP hb hft hfs hmul f _ (by blen)), pure_of]

theorem reads_abarToBarNote (n : AbarToBarNote S P Q K Pf G Mp × UInt64 × Option S.OM) (r : Bytes)
    (hM : ∀ m, n.2.2 = some m → ∀ r, (serMemo F (L.om m)).length < 2 ^ 32 →
      readMemo I R.b64 (serMemo F (L.om m) ++ r) = .ok (L.om m, r))
    (h : (serAbarToBarNote F L bls pf pt sc fpt fsc mul n).length < 2 ^ 32) :
    readAbarToBarNote I R blsR pfR ptR scR fptR fscR mulR (serAbarToBarNote F L bls pf pt sc fpt fsc mul n ++ r) = .ok (n, r) := by
  obtain ⟨⟨i, o, s, t, p, f⟩, v, m⟩ := n
  simp only [serAbarToBarNote, List.length_append] at h
  simp only [serAbarToBarNote, readAbarToBarNote, List.append_assoc]
  rw [bind_of (hP.tuple _ _ (by norm_num)), bind_of (hP.tuple _ _ (by norm_num)), bind_of (reads_leaf hP hb i _ (by blen)),
    bind_of (reads_bar hP hR _ _ (by blen)), bind_of (reads_schnorr hF hP hb ht hs s _ (by blen)),
    bind_of (reads_leaf hP hb t _ (by blen)), bind_of (hP.u64 _ _),
    bind_of (reads_ownerMemo hP hR m _ hM (by blen)), bind_of (reads_map (reads_plonk hF hP) hp p _ (by blen)),
    bind_of (reads_fold hF hP hb hft hfs hmul f _ (by blen)), pure_of]

omit hR hb hp ht hs hft hfs hmul in
theorem reads_aMemo {A : Type} {apk : A → Bytes} {apkR : Bytes → Res A} (ha : ∀ x, apkR (apk x) = .ok x) :
    Reads (serAMemo F apk) (readAMemo I apkR) := by
  rintro ⟨a, b⟩ r h
  simp only [serAMemo, List.length_append] at h
  simp only [serAMemo, readAMemo, List.append_assoc]
  rw [bind_of (hP.tuple _ _ (by norm_num)), bind_of (reads_leaf hP ha a _ (by blen)), bind_of (reads_vecU8 hF hP _ _ (by blen)), pure_of]

omit hR ht hs in
theorem reads_axfrNote {A : Type} {apk : A → Bytes} {apkR : Bytes → Res A} (ha : ∀ x, apkR (apk x) = .ok x) :
    Reads (serAXfrNote F bls pf fpt fsc mul apk) (readAXfrNote I blsR pfR fptR fscR mulR apkR) := by
  have n1 : NonNil (fun x => F.tuple 1 ++ F.bytes (bls x)) := fun e h => by
    simp only [List.append_eq_nil_iff] at h
    exact nonNil_bytes hF _ h.2
  have n2 : NonNil (serAMemo F apk) := fun e h => by
    simp only [serAMemo, List.append_eq_nil_iff] at h
    exact nonNil_bytes hF _ h.2.1
  rintro ⟨⟨i, o, t, v, fe, m⟩, p, f⟩ r h
  simp only [serAXfrNote, List.length_append] at h
  simp only [serAXfrNote, readAXfrNote, List.append_assoc]
  rw [bind_of (hP.tuple _ _ (by norm_num)), bind_of (hP.tuple _ _ (by norm_num)),
    bind_of (reads_vec hP (fun _ => nonNil_bytes hF _) (reads_leaf hP hb) i _ (by blen)),
    bind_of (reads_vec hP n1 (reads_abar hP hb) o _ (by blen)), bind_of (reads_leaf hP hb t _ (by blen)), bind_of (hP.u64 _ _),
    bind_of (hP.u32 _ _), bind_of (reads_vec hP n2 (reads_aMemo hF hP ha) m _ (by blen)),
    bind_of (reads_map (reads_plonk hF hP) hp p _ (by blen)),
    bind_of (reads_fold hF hP hb hft hfs hmul f _ (by blen)), pure_of]

end

end Verif.Serde
