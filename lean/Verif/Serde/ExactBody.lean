import Verif.Serde.Exact

/-!
C115 for ordinary transfers in bincode: the frame of a transfer note has one spelling.
-/

namespace Verif.Serde

open Verif.Xfr (Types XfrAmount XfrAssetType BlindAssetRecord TracerMemo RangeProof AmountProof XfrBody XfrNote)

/-! ### Parts -/

theorem exact_cp : Exact (serCp bincode) (readCp bincodeIn) := by
  intro s a r h
  simp only [readCp, rbind_ok, rpure_ok, bincode_tuple_ok] at h
  obtain ⟨_, _, rfl, x1, t1, h1, x2, t2, h2, x3, t3, h3, x4, t4, h4, x5, t5, h5, rfl, rfl⟩ := h
  rw [exact_bytes _ _ _ h1, exact_bytes _ _ _ h2, exact_bytes _ _ _ h3, exact_bytes _ _ _ h4, exact_bytes _ _ _ h5]
  simp only [serCp, List.append_assoc]
  rfl

theorem exact_cpx : Exact (serCpx bincode) (readCpx bincodeIn) := by
  intro s a r h
  simp only [readCpx, rbind_ok, rpure_ok, bincode_tuple_ok] at h
  obtain ⟨_, _, rfl, x1, t1, h1, x2, t2, h2, rfl, rfl⟩ := h
  rw [exact_cp _ _ _ h1, exact_option exact_cp _ _ _ h2]
  simp only [serCpx, List.append_assoc]
  rfl

theorem exact_peg : Exact (serPeg bincode) (readPeg bincodeIn) := by
  intro s a r h
  simp only [readPeg, rbind_ok, rpure_ok, bincode_tuple_ok] at h
  obtain ⟨_, _, rfl, x1, t1, h1, x2, t2, h2, x3, t3, h3, x4, t4, h4, rfl, rfl⟩ := h
  rw [exact_bytes _ _ _ h1, exact_bytes _ _ _ h2, exact_bytes _ _ _ h3, exact_bytes _ _ _ h4]
  simp only [serPeg, List.append_assoc]
  rfl

theorem exact_pok : Exact (serPok bincode) (readPok bincodeIn) := by
  intro s a r h
  simp only [readPok, rbind_ok, rpure_ok, bincode_tuple_ok] at h
  obtain ⟨_, _, rfl, x1, t1, h1, x2, t2, h2, x3, t3, h3, x4, t4, h4, rfl, rfl⟩ := h
  rw [exact_bytes _ _ _ h1, exact_bytes _ _ _ h2, exact_bytes _ _ _ h3, exact_vec exact_bytes _ _ _ h4]
  simp only [serPok, List.append_assoc]
  rfl

theorem exact_ct : Exact (serCt bincode) (readCt bincodeIn) := by
  intro s a r h
  simp only [readCt, rbind_ok, rpure_ok, bincode_tuple_ok] at h
  obtain ⟨_, _, rfl, x1, t1, h1, x2, t2, h2, rfl, rfl⟩ := h
  rw [exact_bytes _ _ _ h1, exact_bytes _ _ _ h2]
  simp only [serCt, List.append_assoc]
  rfl

theorem exact_cac : Exact (serCac bincode) (readCac bincodeIn) := by
  intro s a r h
  simp only [readCac, rbind_ok, rpure_ok, bincode_tuple_ok] at h
  obtain ⟨_, _, rfl, x1, t1, h1, x2, t2, h2, x3, t3, h3, rfl, rfl⟩ := h
  rw [exact_pok _ _ _ h1, exact_vec exact_ct _ _ _ h2, exact_vec exact_bytes _ _ _ h3]
  simp only [serCac, List.append_assoc]
  rfl

/-- the codecs of all objects in a transfer accept only what they write -/
structure StrictAll {S : Types} (R : Parse S) (L : Leaves S) (sg : S.Sg → Bytes) : Prop extends StrictParse R L sg where
  ek : Strict L.ek R.ek
  ct : Strict L.ct R.ct
  act : Strict L.act R.act
  ipf : Strict L.ipf R.ipf
  rp : Strict L.rp R.rp
  ap : Strict L.ap R.ap
  mp : Strict L.mp R.mp
  tpf : Strict L.tpf R.tpf

section
variable {S : Types} {L : Leaves S} {sg : S.Sg → Bytes} {R : Parse S} (hR : StrictAll R L sg)

include hR

theorem exact_ctPair :
    Exact (fun c : S.Ct × S.Ct => bincode.tuple 2 ++ (serCt bincode (L.ct c.1) ++ serCt bincode (L.ct c.2))) (readCtPair bincodeIn R) := by
  intro s a r h
  simp only [readCtPair, rbind_ok, rpure_ok, bincode_tuple_ok] at h
  obtain ⟨_, _, rfl, x1, t1, h1, x2, t2, h2, rfl, rfl⟩ := h
  rw [exact_map exact_ct hR.ct _ _ _ h1, exact_map exact_ct hR.ct _ _ _ h2]
  simp only [List.append_assoc]
  rfl

theorem exact_tracerMemo : Exact (serTracerMemo bincode L) (readTracerMemo bincodeIn R) := by
  intro s a r h
  simp only [readTracerMemo, rbind_ok, rpure_ok, bincode_tuple_ok] at h
  obtain ⟨_, _, rfl, _, _, rfl, x1, t1, h1, x2, t2, h2, x3, t3, h3, x4, t4, h4, x5, t5, h5, x6, t6, h6, _, _, rfl, x7, t7, h7, x8, t8, h8,
    rfl, rfl⟩ := h
  rw [exact_leaf hR.ek _ _ _ h1, exact_bytes _ _ _ h2, exact_bytes _ _ _ h3, exact_option (exact_ctPair hR) _ _ _ h4,
    exact_option (exact_map exact_ct hR.ct) _ _ _ h5, exact_vec (exact_map exact_ct hR.act) _ _ _ h6, exact_bytes _ _ _ h7,
    exact_bytes _ _ _ h8]
  simp only [serTracerMemo, List.append_assoc]
  rfl

theorem exact_rangeProof : Exact (serRangeProof bincode L) (readRangeProof bincodeIn R) := by
  intro s a r h
  simp only [readRangeProof, rbind_ok, rpure_ok, bincode_tuple_ok] at h
  obtain ⟨_, _, rfl, x1, t1, h1, x2, t2, h2, x3, t3, h3, rfl, rfl⟩ := h
  rw [exact_leaf hR.rp _ _ _ h1, exact_leaf hR.cg _ _ _ h2, exact_leaf hR.cg _ _ _ h3]
  simp only [serRangeProof, List.append_assoc]
  rfl

theorem exact_amountProof : Exact (serAmountProof bincode L) (readAmountProof bincodeIn R) := by
  intro s a r h
  unfold readAmountProof at h
  obtain ⟨i, t, h1, h'⟩ := rbind_ok.mp h
  clear h
  obtain ⟨hi, rfl⟩ := bincode_variant_ok h1
  simp only [proofTable, List.length_cons, List.length_nil] at hi
  match i, h' with
  | 0, h' =>
    simp only [rbind_ok, rpure_ok] at h'
    obtain ⟨x1, t1, h1, rfl, rfl⟩ := h'
    rw [exact_leaf hR.mp _ _ _ h1]
    simp only [serAmountProof, List.append_assoc]
    rfl
  | 1, h' =>
    simp only [rbind_ok, rpure_ok] at h'
    obtain ⟨x1, t1, h1, rfl, rfl⟩ := h'
    rw [exact_rangeProof hR _ _ _ h1]
    simp only [serAmountProof, List.append_assoc]
    rfl
  | 2, h' =>
    simp only [rbind_ok, rpure_ok] at h'
    obtain ⟨x1, t1, h1, rfl, rfl⟩ := h'
    rw [exact_map exact_cpx hR.ap _ _ _ h1]
    simp only [serAmountProof, List.append_assoc]
    rfl
  | 3, h' =>
    simp only [rbind_ok, rpure_ok, bincode_tuple_ok] at h'
    obtain ⟨_, _, rfl, x1, t1, h1, x2, t2, h2, rfl, rfl⟩ := h'
    rw [exact_rangeProof hR _ _ _ h1, exact_map exact_cpx hR.ap _ _ _ h2]
    simp only [serAmountProof, List.append_assoc]
    rfl
  | 4, h' =>
    obtain ⟨rfl, rfl⟩ := rpure_ok.mp h'
    rfl
  | k + 5, _ => omega

theorem exact_identity : Exact (serIdentity bincode L) (readIdentity bincodeIn R) :=
  exact_vec (exact_vec (exact_option (exact_map exact_cac hR.ipf)))

omit hR in
/-- in bincode only `None` is read -/
theorem exact_ownerMemo : Exact (serOwnerMemo bincode L) (readOwnerMemo bincodeIn R) := by
  refine exact_option (enc := fun m => serMemo bincode (L.om m)) ?_
  intro s a r h
  simp only [readMap, readMemo, rbind_ok] at h
  obtain ⟨_, _, ⟨_, _, _, _, _, h1, _⟩, _⟩ := h
  cases h1

/-- a list of records whose amounts are confidential -/
theorem exact_conf_bars {s r : Bytes} {l : List (BlindAssetRecord S)} (hc : ∀ b ∈ l, ∃ lo hi, b.amount = .conf lo hi)
    (h : readVec bincodeIn (readBar bincodeIn R) s = .ok (l, r)) : s = serVec bincode (serBar bincode L) l ++ r := by
  have key : ∀ n s (l : List (BlindAssetRecord S)) r, (∀ b ∈ l, ∃ lo hi, b.amount = .conf lo hi) →
      readN (readBar bincodeIn R) n s = .ok (l, r) → l.length = n ∧ s = l.flatMap (serBar bincode L) ++ r := by
    intro n
    induction n with
    | zero =>
      intro s l r _ hs
      obtain ⟨rfl, rfl⟩ := rpure_ok.mp hs
      exact ⟨rfl, rfl⟩
    | succ n ih =>
      intro s l r hc hs
      simp only [readN, rbind_ok, rpure_ok] at hs
      obtain ⟨a, t, h1, l', t', h2, rfl, rfl⟩ := hs
      obtain ⟨e1, e2⟩ := ih _ _ _ (fun b hb => hc b (List.mem_cons_of_mem _ hb)) h2
      exact ⟨by simp [e1], by rw [exact_conf_bar hR.toStrictParse (hc a List.mem_cons_self) h1, e2, List.flatMap_cons, List.append_assoc]⟩
  simp only [readVec, rbind_ok] at h
  obtain ⟨n, t, h1, h2⟩ := h
  obtain ⟨rfl, rfl⟩ := key n _ _ _ hc h2
  rw [exact_readLE 8 _ _ _ h1]
  simp only [serVec, bincode, List.append_assoc]

/-- C115: Only one byte string is read as a given transfer whose amounts are confidential, if the codecs of its points, scalars and
proofs accept only what they write.  (With bincode no owner memo is read, `C98_transfer_bincode_violated`.)  Missing: that condition, and public
amounts (`C115_public_amount_violated`). -/
theorem C115_transfer_partial (s s' r r' : Bytes) (n : XfrNote S)
    (hc : ∀ b ∈ n.body.inputs ++ n.body.outputs, ∃ lo hi, b.amount = .conf lo hi) (h : readXfrNote bincodeIn R s = .ok (n, r))
    (h' : readXfrNote bincodeIn R s' = .ok (n, r')) : ∃ t, s = t ++ r ∧ s' = t ++ r' ∧ t = serXfrNote bincode L sg n := by
  have key : ∀ s r, readXfrNote bincodeIn R s = .ok (n, r) → s = serXfrNote bincode L sg n ++ r := by
    intro s r h
    simp only [readXfrNote, readXfrBody, rbind_ok, rpure_ok, bincode_tuple_ok] at h
    obtain ⟨_, _, rfl, b, t, ⟨_, _, rfl, x1, t1, h1, x2, t2, h2, _, _, rfl, x3, t3, h3, _, _, rfl, x4, t4, h4, x5, t5, h5, x6, t6, h6, x7, t7, h7,
      x8, t8, h8, rfl, rfl⟩, _, _, rfl, x9, t9, h9, rfl, rfl⟩ := h
    rw [exact_conf_bars hR (fun b hb => hc b (List.mem_append_left _ hb)) h1,
      exact_conf_bars hR (fun b hb => hc b (List.mem_append_right _ hb)) h2, exact_amountProof hR _ _ _ h3,
      exact_vec (exact_map exact_peg hR.tpf) _ _ _ h4, exact_identity hR _ _ _ h5, exact_identity hR _ _ _ h6,
      exact_vec (exact_vec (exact_tracerMemo hR)) _ _ _ h7, exact_vec exact_ownerMemo _ _ _ h8, exact_vec (exact_leaf hR.sg) _ _ _ h9]
    simp only [serXfrNote, serXfrBody, List.append_assoc]
    rfl
  exact ⟨_, key _ _ h, key _ _ h', rfl⟩

end

end Verif.Serde
