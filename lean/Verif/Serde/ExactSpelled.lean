import Verif.Serde.AmountText
import Verif.Serde.ExactBody

/-!
C115 with public amounts, in bincode: the text of a public amount is the only part of the frame of a note that has several spellings.
-/

namespace Verif.Serde

open Verif.Xfr (Types XfrAmount XfrAssetType BlindAssetRecord XfrBody XfrNote)
open Verif.Anon

/-- `t` is a decimal number with the value `a`, perhaps with zeros in front and perhaps after a plus sign -/
def DecimalOf (t : Bytes) (a : UInt64) : Prop :=
  ∃ ds : List Nat, ds ≠ [] ∧ (∀ d ∈ ds, d < 10) ∧ Nat.ofDigits 10 ds.reverse = a.toNat ∧
    (t = ds.map (fun d => UInt8.ofNat (48 + d)) ∨ t = 43 :: ds.map (fun d => UInt8.ofNat (48 + d)))

/-- the bytes of a record, up to the text of a public amount -/
inductive BarSpelling {S : Types} (L : Leaves S) : BlindAssetRecord S → Bytes → Prop
  | conf (lo hi : S.CG) (ty : XfrAssetType S) (k : S.PK) : BarSpelling L ⟨.conf lo hi, ty, k⟩ (serBar bincode L ⟨.conf lo hi, ty, k⟩)
  | plain (a : UInt64) (ty : XfrAssetType S) (k : S.PK) (t : Bytes) : DecimalOf t a →
      BarSpelling L ⟨.plain a, ty, k⟩ ([1, 0, 0, 0] ++ (leBytes 8 t.length ++ (t ++ (serAssetType bincode L ty ++ bincode.bytes (L.pk k)))))

section
variable {S : Types} {L : Leaves S} {sg : S.Sg → Bytes} {R : Parse S}

theorem spelled_bar (hR : StrictParse R L sg) {s r : Bytes} {b : BlindAssetRecord S} (h : readBar bincodeIn R s = .ok (b, r)) :
    ∃ x, BarSpelling L b x ∧ s = x ++ r := by
  have h' := h
  simp only [readBar, rbind_ok, rpure_ok, bincode_tuple_ok] at h
  obtain ⟨_, _, rfl, x1, t1, h1, x2, t2, h2, x3, t3, h3, rfl, rfl⟩ := h
  cases x1 with
  | conf lo hi => exact ⟨_, .conf lo hi x2 x3, exact_conf_bar hR ⟨lo, hi, rfl⟩ h'⟩
  | plain a =>
    clear h'
    unfold readAmount at h1
    obtain ⟨i, t, h4, h5⟩ := rbind_ok.mp h1
    clear h1
    obtain ⟨hi, rfl⟩ := bincode_variant_ok h4
    split_ifs at h5 with h0
    · simp only [rbind_ok, rpure_ok] at h5
      obtain ⟨_, _, _, _, _, _, _, _, _, e, _⟩ := h5
      cases e
    · have hi1 : i = 1 := by simp only [confTable, List.length_cons, List.length_nil] at hi; omega
      subst hi1
      simp only [rbind_ok, rpure_ok] at h5
      obtain ⟨x, t', h6, a', t'', h7, e, rfl⟩ := h5
      cases e
      obtain ⟨h8, rfl⟩ := lift_ok_iff.mp h7
      have h9 : parseU64 x = some a := by
        cases hx : parseU64 x with
        | none => rw [hx] at h8; cases h8
        | some y => rw [hx] at h8; cases h8; rfl
      refine ⟨_, .plain a x2 x3 x ((C98_amount_text x a).mp h9), ?_⟩
      have h10 : t = bincode.bytes x ++ t' := exact_bytes _ _ _ h6
      rw [h10, exact_assetType hR _ _ _ h2, exact_leaf hR.pk _ _ _ h3]
      simp only [bincode, List.append_assoc]
      rfl

theorem spelled_bars (hR : StrictParse R L sg) {s r : Bytes} {l : List (BlindAssetRecord S)}
    (h : readVec bincodeIn (readBar bincodeIn R) s = .ok (l, r)) :
    ∃ xs, List.Forall₂ (BarSpelling L) l xs ∧ s = leBytes 8 l.length ++ (xs.flatten ++ r) := by
  have key : ∀ n s (l : List (BlindAssetRecord S)) r, readN (readBar bincodeIn R) n s = .ok (l, r) →
      l.length = n ∧ ∃ xs, List.Forall₂ (BarSpelling L) l xs ∧ s = xs.flatten ++ r := by
    intro n
    induction n with
    | zero =>
      intro s l r hs
      obtain ⟨rfl, rfl⟩ := rpure_ok.mp hs
      exact ⟨rfl, [], .nil, rfl⟩
    | succ n ih =>
      intro s l r hs
      simp only [readN, rbind_ok, rpure_ok] at hs
      obtain ⟨a, t, h1, l', t', h2, rfl, rfl⟩ := hs
      obtain ⟨e1, xs, e2, e3⟩ := ih _ _ _ h2
      obtain ⟨x, e4, e5⟩ := spelled_bar hR h1
      exact ⟨by simp [e1], x :: xs, .cons e4 e2, by rw [e5, e3, List.flatten_cons, List.append_assoc]⟩
  simp only [readVec, rbind_ok] at h
  obtain ⟨n, t, h1, h2⟩ := h
  obtain ⟨rfl, xs, h3, rfl⟩ := key n _ _ _ h2
  exact ⟨xs, h3, exact_readLE 8 _ _ _ h1⟩

/-- what follows the records in a transfer -/
def xfrRest (L : Leaves S) (sg : S.Sg → Bytes) (n : XfrNote S) : Bytes :=
  serAmountProof bincode L n.body.amountProof ++ (serVec bincode (fun p => serPeg bincode (L.tpf p)) n.body.tracingProofs ++
    (serIdentity bincode L n.body.inputsIdentityProofs ++ (serIdentity bincode L n.body.outputsIdentityProofs ++
    (serVec bincode (serVec bincode (serTracerMemo bincode L)) n.body.tracingMemos ++
    (serVec bincode (serOwnerMemo bincode L) n.body.ownersMemos ++ serVec bincode (fun x => bincode.bytes (sg x)) n.signatures)))))

theorem spelled_note (hR : StrictAll R L sg) (n : XfrNote S) : ∀ s r, readXfrNote bincodeIn R s = .ok (n, r) →
    ∃ xs ys, List.Forall₂ (BarSpelling L) n.body.inputs xs ∧ List.Forall₂ (BarSpelling L) n.body.outputs ys ∧
      s = leBytes 8 n.body.inputs.length ++ (xs.flatten ++ (leBytes 8 n.body.outputs.length ++ (ys.flatten ++ (xfrRest L sg n ++ r)))) := by
  intro s r h
  simp only [readXfrNote, readXfrBody, rbind_ok, rpure_ok, bincode_tuple_ok] at h
  obtain ⟨_, _, rfl, b, t, ⟨_, _, rfl, x1, t1, h1, x2, t2, h2, _, _, rfl, x3, t3, h3, _, _, rfl, x4, t4, h4, x5, t5, h5, x6, t6, h6, x7, t7, h7,
    x8, t8, h8, rfl, rfl⟩, _, _, rfl, x9, t9, h9, rfl, rfl⟩ := h
  obtain ⟨xs, hx, rfl⟩ := spelled_bars hR.toStrictParse h1
  obtain ⟨ys, hy, rfl⟩ := spelled_bars hR.toStrictParse h2
  refine ⟨xs, ys, hx, hy, ?_⟩
  rw [exact_amountProof hR _ _ _ h3,
    exact_vec (exact_map exact_peg hR.tpf) _ _ _ h4, exact_identity hR _ _ _ h5, exact_identity hR _ _ _ h6,
    exact_vec (exact_vec (exact_tracerMemo hR)) _ _ _ h7, exact_vec (exact_ownerMemo (L := L)) _ _ _ h8, exact_vec (exact_leaf hR.sg) _ _ _ h9]
  simp only [xfrRest, List.append_assoc]

/-- C115: Every byte string that is read as a given transfer consists of the numbers of inputs and outputs, a spelling of each record, and
a rest that depends on the note only, if the codecs of points, scalars and proofs accept only what they write.  So strings that are read as
the same note differ in the texts of public amounts and nowhere else.  Missing for C115: that these texts are unique
(`C115_transfer_violated`), and the condition on the codecs. -/
theorem C115_transfer_spellings_partial (hR : StrictAll R L sg) (n : XfrNote S) : ∃ rest, ∀ s r, readXfrNote bincodeIn R s = .ok (n, r) →
    ∃ xs ys, List.Forall₂ (BarSpelling L) n.body.inputs xs ∧ List.Forall₂ (BarSpelling L) n.body.outputs ys ∧
      s = leBytes 8 n.body.inputs.length ++ (xs.flatten ++ (leBytes 8 n.body.outputs.length ++ (ys.flatten ++ (rest ++ r)))) :=
  ⟨xfrRest L sg n, spelled_note hR n⟩

/-! ### Every spelling is read -/

theorem reads_spelled (hR : R.Of L sg) {b : BlindAssetRecord S} {x : Bytes} (hx : BarSpelling L b x) (r : Bytes) (hl : x.length < 2 ^ 32) :
    readBar bincodeIn R (x ++ r) = .ok (b, r) := by
  cases hx with
  | conf lo hi ty k => exact reads_bar bincode_paired hR _ r hl
  | plain a ty k t ht =>
    simp only [List.length_append] at hl
    have e : [1, 0, 0, 0] ++ (leBytes 8 t.length ++ (t ++ (serAssetType bincode L ty ++ bincode.bytes (L.pk k)))) ++ r =
        bincode.tuple 3 ++ (bincode.variant true 1 nonConfName ++ (bincode.str t ++ (serAssetType bincode L ty ++ (bincode.bytes (L.pk k) ++ r)))) := by
      simp only [bincode, List.append_assoc]
      rfl
    have hs : (bincode.str t).length < 2 ^ 32 := by
      simp only [bincode, List.length_append]
      omega
    rw [e]
    simp only [readBar]
    rw [bind_of (bincode_paired.tuple _ _ (by norm_num))]
    have key : ∀ q, readAmount bincodeIn R (bincode.variant true 1 nonConfName ++ (bincode.str t ++ q)) = .ok (.plain a, q) := by
      intro q
      simp only [readAmount]
      rw [bind_of (reads_nonConf bincode_paired _), if_neg (by norm_num), bind_of (bincode_paired.str _ _ hs),
        bind_of (lift_ok (by rw [(C98_amount_text t a).mpr ht]; rfl) _), pure_of]
    rw [bind_of (key _), bind_of (reads_assetType bincode_paired hR _ _ (by omega)),
      bind_of (reads_leaf bincode_paired hR.pk k _ (by beta_reduce; omega)), pure_of]

theorem reads_spelled_bars (hR : R.Of L sg) {l : List (BlindAssetRecord S)} {xs : List Bytes} (hx : List.Forall₂ (BarSpelling L) l xs)
    (r : Bytes) (hn : l.length < 2 ^ 32) (hl : xs.flatten.length < 2 ^ 32) :
    readVec bincodeIn (readBar bincodeIn R) (leBytes 8 l.length ++ (xs.flatten ++ r)) = .ok (l, r) := by
  have key : readN (readBar bincodeIn R) l.length (xs.flatten ++ r) = .ok (l, r) := by
    clear hn
    induction hx with
    | nil => rfl
    | cons h _ ih =>
      simp only [List.flatten_cons, List.length_append] at hl
      simp only [List.length_cons, readN, List.flatten_cons, List.append_assoc]
      rw [bind_of (reads_spelled hR h _ (by omega)), bind_of (ih (by omega)), pure_of]
  exact (bind_of (f := fun n => readN (readBar bincodeIn R) n) (bincode_paired.seq l.length (xs.flatten ++ r) hn)).trans key

theorem reads_spelled_note (hR : R.Of L sg) (n : XfrNote S) (hm : ∀ o ∈ n.body.ownersMemos, o = none) {xs ys : List Bytes}
    (hx : List.Forall₂ (BarSpelling L) n.body.inputs xs) (hy : List.Forall₂ (BarSpelling L) n.body.outputs ys) (r : Bytes)
    (hi : n.body.inputs.length < 2 ^ 32) (ho : n.body.outputs.length < 2 ^ 32) (hl : xs.flatten.length + ys.flatten.length < 2 ^ 32)
    (hr : (xfrRest L sg n).length < 2 ^ 32) :
    readXfrNote bincodeIn R (leBytes 8 n.body.inputs.length ++ (xs.flatten ++ (leBytes 8 n.body.outputs.length ++ (ys.flatten ++
      (xfrRest L sg n ++ r))))) = .ok (n, r) := by
  obtain ⟨⟨a1, a2, a3, a4, a5, a6, a7, a8⟩, s⟩ := n
  have hF := bincode_lawful
  have hP := bincode_paired
  simp only [xfrRest, List.length_append] at hr
  simp only [xfrRest, readXfrNote, List.append_assoc] at *
  rw [bind_of (x := bincodeIn.tuple 2) (pure_of _ _)]
  have hb : readXfrBody bincodeIn R (leBytes 8 a1.length ++ (xs.flatten ++ (leBytes 8 a2.length ++ (ys.flatten ++
      (serAmountProof bincode L a3 ++ (serVec bincode (fun p => serPeg bincode (L.tpf p)) a4 ++
        (serIdentity bincode L a5 ++ (serIdentity bincode L a6 ++ (serVec bincode (serVec bincode (serTracerMemo bincode L)) a7 ++
          (serVec bincode (serOwnerMemo bincode L) a8 ++ (serVec bincode (fun s => bincode.bytes (sg s)) s ++ r))))))))))) =
      .ok (⟨a1, a2, a3, a4, a5, a6, a7, a8⟩, serVec bincode (fun s => bincode.bytes (sg s)) s ++ r) := by
    simp only [readXfrBody]
    rw [bind_of (x := bincodeIn.tuple 5) (pure_of _ _), bind_of (reads_spelled_bars hR hx _ hi (by omega)),
      bind_of (reads_spelled_bars hR hy _ ho (by omega)), bind_of (x := bincodeIn.tuple 2) (pure_of _ _),
      bind_of (reads_amountProof hP hR _ _ (by omega)), bind_of (x := bincodeIn.tuple 3) (pure_of _ _),
      bind_of (reads_vec hP (fun _ => nonNil_peg hF _) (reads_map (reads_peg hP) hR.tpf) a4 _ (by omega)),
      bind_of (reads_identity hF hP hR _ _ (by omega)), bind_of (reads_identity hF hP hR _ _ (by omega)),
      bind_of (reads_vec hP (nonNil_vec hF) (reads_vec hP (nonNil_tracerMemo hF) (reads_tracerMemo hF hP hR)) _ _ (by omega)),
      bind_of (reads_vec_of (enc := serOwnerMemo bincode L) (rd := readOwnerMemo bincodeIn R) hP (nonNil_option hF (fun _ => nonNil_memo hF _)) a8 _
        (fun o ho r hl => reads_ownerMemo hP hR o r (fun m hm' => absurd ((hm o ho).symm.trans hm') (by simp)) hl) (by omega)), pure_of]
  rw [bind_of hb, bind_of (x := bincodeIn.tuple 1) (pure_of _ _),
    bind_of (reads_vec hP (fun _ => nonNil_bytes hF _) (reads_leaf hP hR.sg) s _ (by omega)), pure_of]

/-- C115: Exactly which byte strings are read as a given transfer without owner memos, if the codecs of points, scalars and proofs accept
what they write and nothing else: the numbers of inputs and outputs, a spelling of each record, and the rest.  Missing for C115: that the
spelling of a public amount is unique, and the condition on the codecs. -/
theorem C115_transfer_texts_partial (hS : StrictAll R L sg) (hR : R.Of L sg) (n : XfrNote S) (hm : ∀ o ∈ n.body.ownersMemos, o = none)
    (s : Bytes) (hl : s.length < 2 ^ 32) (hi : n.body.inputs.length < 2 ^ 32) (ho : n.body.outputs.length < 2 ^ 32) :
    readXfrNote bincodeIn R s = .ok (n, []) ↔
      ∃ xs ys, List.Forall₂ (BarSpelling L) n.body.inputs xs ∧ List.Forall₂ (BarSpelling L) n.body.outputs ys ∧
        s = leBytes 8 n.body.inputs.length ++ (xs.flatten ++ (leBytes 8 n.body.outputs.length ++ (ys.flatten ++ xfrRest L sg n))) := by
  constructor
  · intro h
    obtain ⟨xs, ys, hx, hy, e⟩ := spelled_note hS n s [] h
    rw [List.append_nil] at e
    exact ⟨xs, ys, hx, hy, e⟩
  · rintro ⟨xs, ys, hx, hy, rfl⟩
    simp only [List.length_append] at hl
    have := reads_spelled_note hR n hm hx hy [] hi ho (by omega) (by omega)
    rwa [List.append_nil] at this

variable {K Pf : Type} {bls : K → Bytes} {blsR : Bytes → Res K} {pf : Pf → WPlonk} {pfR : WPlonk → Res Pf}

/-- C115: The same for the note that brings a public record into the pool. -/
theorem C115_ar_to_abar_partial (hR : StrictParse R L sg) (hb : Strict bls blsR) (hp : Strict pf pfR) (n : ArToAbarNote S K Pf) :
    ∃ rest, ∀ s r, readArToAbarNote bincodeIn R blsR pfR s = .ok (n, r) → ∃ x, BarSpelling L n.body.input x ∧ s = x ++ (rest ++ r) := by
  refine ⟨bincode.bytes (bls n.body.output) ++ (serPlonk bincode (pf n.body.proof) ++ (serAxfrMemo bincode n.body.memo ++
    bincode.bytes (sg n.signature))), ?_⟩
  intro s r h
  simp only [readArToAbarNote, readArToAbarBody, rbind_ok, rpure_ok, bincode_tuple_ok] at h
  obtain ⟨_, _, rfl, b, t, ⟨_, _, rfl, x1, t1, h1, x2, t2, h2, x4, t4, h4, x5, t5, h5, rfl, rfl⟩, x6, t6, h6, rfl, rfl⟩ := h
  obtain ⟨x, hx, rfl⟩ := spelled_bar hR h1
  refine ⟨x, hx, ?_⟩
  rw [exact_abar hb _ _ _ h2, exact_map exact_plonk hp _ _ _ h4, exact_axfrMemo _ _ _ h5, exact_leaf hR.sg _ _ _ h6]
  simp only [List.append_assoc]
  rfl

variable {P : SimFr.Params} {G Mp : Type} {fpt : G → Bytes} {fsc : ZMod P.r → Bytes} {mul : Mp → Bytes} {fptR : Bytes → Res G}
  {fscR : Bytes → Res (ZMod P.r)} {mulR : Bytes → Res Mp}

/-- C115: The same for the note that leads out of the pool to a public record. -/
theorem C115_abar_to_ar_partial (hR : StrictParse R L sg) (hb : Strict bls blsR) (hp : Strict pf pfR) (hft : Strict fpt fptR)
    (hfs : Strict fsc fscR) (hmul : Strict mul mulR) (n : AbarToArNote S P K Pf G Mp × UInt64 × Option S.OM) :
    ∃ rest, ∀ s r, readAbarToArNote bincodeIn R blsR pfR fptR fscR mulR s = .ok (n, r) →
      ∃ x, BarSpelling L n.1.output x ∧ s = bincode.bytes (bls n.1.input) ++ (x ++ (rest ++ r)) := by
  refine ⟨bincode.bytes (bls n.1.root) ++ (bincode.u64 n.2.1 ++ (serOwnerMemo bincode L n.2.2 ++ (serPlonk bincode (pf n.1.proof) ++
    serFold bincode bls fpt fsc mul n.1.folding))), ?_⟩
  intro s r h
  simp only [readAbarToArNote, rbind_ok, rpure_ok, bincode_tuple_ok] at h
  obtain ⟨_, _, rfl, _, _, rfl, x1, t1, h1, x2, t2, h2, x3, t3, h3, x4, t4, h4, x5, t5, h5, x6, t6, h6, x7, t7, h7, rfl, rfl⟩ := h
  obtain ⟨x, hx, rfl⟩ := spelled_bar hR h2
  refine ⟨x, hx, ?_⟩
  rw [exact_leaf hb _ _ _ h1, exact_leaf hb _ _ _ h3, exact_u64 _ _ _ h4, exact_ownerMemo (L := L) _ _ _ h5, exact_map exact_plonk hp _ _ _ h6,
    exact_fold hb hft hfs hmul _ _ _ h7]
  simp only [List.append_assoc]

/-- C115: The same for the note that leads out of the pool to a confidential record, whose amount has one spelling. -/
theorem C115_abar_to_bar_partial {Q : SimFr.Params} {pt : S.G → Bytes} {sc : ZMod Q.r → Bytes} {ptR : Bytes → Res S.G}
    {scR : Bytes → Res (ZMod Q.r)} (hR : StrictParse R L sg) (hb : Strict bls blsR) (hp : Strict pf pfR) (hft : Strict fpt fptR)
    (hfs : Strict fsc fscR) (hmul : Strict mul mulR) (ht : Strict pt ptR) (hs : Strict sc scR)
    (n : AbarToBarNote S P Q K Pf G Mp × UInt64 × Option S.OM) (hc : ∃ lo hi, n.1.output.amount = .conf lo hi) (s s' r r' : Bytes)
    (h : readAbarToBarNote bincodeIn R blsR pfR ptR scR fptR fscR mulR s = .ok (n, r))
    (h' : readAbarToBarNote bincodeIn R blsR pfR ptR scR fptR fscR mulR s' = .ok (n, r')) :
    ∃ t, s = t ++ r ∧ s' = t ++ r' ∧ t = serAbarToBarNote bincode L bls pf pt sc fpt fsc mul n := by
  have key : ∀ s r, readAbarToBarNote bincodeIn R blsR pfR ptR scR fptR fscR mulR s = .ok (n, r) →
      s = serAbarToBarNote bincode L bls pf pt sc fpt fsc mul n ++ r := by
    intro s r h
    simp only [readAbarToBarNote, rbind_ok, rpure_ok, bincode_tuple_ok] at h
    obtain ⟨_, _, rfl, _, _, rfl, x1, t1, h1, x2, t2, h2, y, t8, h8, x3, t3, h3, x4, t4, h4, x5, t5, h5, x6, t6, h6, x7, t7, h7, rfl, rfl⟩ := h
    rw [exact_leaf hb _ _ _ h1, exact_conf_bar hR hc h2, exact_schnorr hb ht hs _ _ _ h8, exact_leaf hb _ _ _ h3, exact_u64 _ _ _ h4,
      exact_ownerMemo (L := L) _ _ _ h5, exact_map exact_plonk hp _ _ _ h6, exact_fold hb hft hfs hmul _ _ _ h7]
    simp only [serAbarToBarNote, List.append_assoc]
    rfl
  exact ⟨_, key _ _ h, key _ _ h', rfl⟩

end

end Verif.Serde
