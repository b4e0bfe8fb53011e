import Verif.Anon.Size
import Verif.Setup.End

/-!
C93: the sizes of the circuits of the anonymous part.  The number of gates, the number of variables and the gates at which public
inputs enter do not depend on the witness; they are given here in numbers, for Rescue with twelve rounds, the order of
secp256k1 and the two simulated fields.
-/

namespace Verif.Setup

open Verif.Plonk Verif.Anon Verif.SimFr

variable {F : Type} [Field F] [DecidableEq F] [ScalarRepr F]

namespace Spec

/-- the number of gates of a transfer with `n` inputs and `m` outputs against a tree of depth `d`, before padding -/
def transferGates (d n m : Nat) : Nat := 6 * n * n + 6 * m * m + 13 * n * m + (774 + 156 * d) * n + 320 * m + 3061

/-- the number of its variables -/
def transferVars (d n m : Nat) : Nat := 6 * n * n + 6 * m * m + 11 * n * m + (836 + 157 * d) * n + 386 * m + 5265

/-- the gates at which its public inputs enter: nullifiers, root, commitments, fee, and the 37 of the folding instance -/
def transferPublic (d n m : Nat) : List Nat :=
  let root := 4 * d * n + (765 + 152 * d) * n - 1
  (List.range n).map (fun i => 4 * d * n + (765 + 152 * d) * i + (763 + 152 * d)) ++ [root] ++
    (List.range m).map (fun j => root + 1 + 319 * j + 318) ++ [root + 1 + 319 * m] ++
    (List.range 37).map (fun k => root + 2 + 319 * m + 3021 + k)

/-- the size of a circuit: the least power of two that is at least the number of gates -/
def IsSize (gates size : Nat) : Prop := (∃ k, size = 2 ^ k) ∧ gates ≤ size ∧ ∀ k, gates ≤ 2 ^ k → size ≤ 2 ^ k

end Spec

theorem isSize_next (g : Nat) : Spec.IsSize g (nextPow2 g) :=
  ⟨⟨_, rfl⟩, Nat.le_pow_clog (by norm_num) _, fun k h => Nat.pow_le_pow_right (by norm_num) (Nat.clog_le_of_le_pow h)⟩

theorem isSize_unique {g a b : Nat} (ha : Spec.IsSize g a) (hb : Spec.IsSize g b) : a = b := by
  obtain ⟨⟨i, rfl⟩, h1, h2⟩ := ha
  obtain ⟨⟨j, rfl⟩, h3, h4⟩ := hb
  exact le_antisymm (h2 j h3) (h4 i h1)

/-- to show a size it is enough that it is a power of two and half of it is too small -/
theorem isSize_of {g k : Nat} (h1 : g ≤ 2 ^ (k + 1)) (h2 : 2 ^ k < g) : Spec.IsSize g (2 ^ (k + 1)) := by
  refine ⟨⟨_, rfl⟩, h1, fun j hj => Nat.pow_le_pow_right (by norm_num) ?_⟩
  by_contra hlt
  have : 2 ^ j ≤ 2 ^ k := Nat.pow_le_pow_right (by norm_num) (by omega)
  omega

/-- C93: the transfer circuit, for every witness. -/
theorem C93_transfer (p : Rescue.Params F) (hr : p.numRounds = 12) (dbg : Bool) (wit : FoldWitness secq256k1 F) (d : Nat)
    (payers : List (Payer F)) (payees : List (Payee F)) (pk : PK F) (sk : SK F) (fee ft : F)
    (hd : ∀ s ∈ payers, s.path.length = d) (vars : XfrVars FoldVars) (cs : CS F)
    (hb : buildMultiXfr p (foldingCircuit p dbg secq256k1 secpOrderBytes wit) payers payees pk sk fee ft CS.new = some (vars, cs)) :
    Spec.IsSize (Spec.transferGates d payers.length payees.length) cs.gates.length ∧
      cs.numVars = Spec.transferVars d payers.length payees.length ∧
      cs.pubCons = Spec.transferPublic d payers.length payees.length := by
  have hc : cmpCost (secpOrderBytes.flatMap byteBits) = 448 := by decide +kernel
  have h := (ends_transfer p dbg secpOrderBytes wit rfl d payers payees pk sk fee ft hd).run _ _ _ hb
  rw [hr, hc] at h
  have hn : payers ≠ [] := by
    rintro rfl
    simp [buildMultiXfr, failure, StateT.failure] at hb
  have hn : 0 < payers.length := List.length_pos_iff.mpr hn
  revert h hn
  generalize payers.length = n
  generalize payees.length = m
  intro h hn
  obtain ⟨n, rfl⟩ := Nat.exists_eq_add_of_lt hn
  obtain ⟨h1, h2, h3⟩ := h
  refine ⟨?_, ?_, ?_⟩
  · have e : (CS.new : CS F).gates.length + (transferCost 448 (4 + 12 * 12) d (0 + n + 1) m).gates =
        Spec.transferGates d (0 + n + 1) m := by
      simp only [CS.new, transferCost, Cost.sum, List.foldr, Cost.seq, Cost.zero, payersCost, foldCost, Spec.transferGates,
        List.length_nil]
      have : (0 + n + 1) * (5 * (4 + 12 * 12) + d * (4 + (4 + 12 * 12)) + 25) - 1 + 1 =
        (0 + n + 1) * (5 * (4 + 12 * 12) + d * (4 + (4 + 12 * 12)) + 25) := Nat.sub_add_cancel (by nlinarith)
      nlinarith
    rw [h1, e]
    exact isSize_next _
  · rw [h2]
    simp only [CS.new, transferCost, Cost.sum, List.foldr, Cost.seq, Cost.zero, payersCost, foldCost, Spec.transferVars]
    ring
  · rw [h3]
    have e : (0 + n + 1) * (5 * (4 + 12 * 12) + d * (4 + (4 + 12 * 12)) + 25) = (765 + 152 * d) * (0 + n + 1) := by ring
    have e2 : (0 + n + 1) * (4 * d) = 4 * d * (0 + n + 1) := by ring
    simp only [CS.new, transferCost, Cost.sum, List.foldr, Cost.seq, Cost.zero, payersCost, foldCost, Spec.transferPublic,
      List.map_append, List.map_map, List.map_cons, List.map_nil, List.nil_append, List.append_nil, List.append_assoc, e, e2,
      List.length_nil, Function.comp_def]
    have hp : 0 < (765 + 152 * d) * (0 + n + 1) := Nat.mul_pos (by omega) (by omega)
    generalize (765 + 152 * d) * (0 + n + 1) = A at *
    generalize 4 * d * (0 + n + 1) = B at *
    generalize List.range 37 = L
    refine congrArg₂ _ (List.map_congr_left fun i _ => ?_) (congrArg₂ _ ?_ (congrArg₂ _ (List.map_congr_left fun i _ => ?_)
      (congrArg₂ _ ?_ (List.map_congr_left fun i _ => ?_))))
    · ring
    · simp; omega
    · omega
    · simp; omega
    · omega

/-- C93: the transfers that parameters exist for, one to six inputs and outputs against a tree of depth 20. -/
theorem C93_transfer_sizes (p : Rescue.Params F) (hr : p.numRounds = 12) (dbg : Bool) (wit : FoldWitness secq256k1 F)
    (payers : List (Payer F)) (payees : List (Payee F)) (pk : PK F) (sk : SK F) (fee ft : F)
    (hd : ∀ s ∈ payers, s.path.length = 20) (h1 : payers.length ≤ 6) (h2 : payees.length ≤ 6) (vars : XfrVars FoldVars) (cs : CS F)
    (hb : buildMultiXfr p (foldingCircuit p dbg secq256k1 secpOrderBytes wit) payers payees pk sk fee ft CS.new = some (vars, cs)) :
    cs.gates.length = (if payers.length = 1 ∧ payees.length ≤ 3 then 8192
      else if payers.length ≤ 2 ∨ payers.length = 3 ∧ payees.length ≤ 4 then 16384 else 32768) ∧
    cs.pubCons.length = payers.length + payees.length + 39 := by
  obtain ⟨e1, -, e3⟩ := C93_transfer p hr dbg wit 20 payers payees pk sk fee ft hd vars cs hb
  have h3 : payers ≠ [] := by
    rintro rfl
    simp [buildMultiXfr, failure, StateT.failure] at hb
  have h4 : payees ≠ [] := by
    rintro rfl
    simp [buildMultiXfr, failure, StateT.failure] at hb
  have h3 : 0 < payers.length := List.length_pos_iff.mpr h3
  have h4 : 0 < payees.length := List.length_pos_iff.mpr h4
  refine ⟨?_, by rw [e3]; simp [Spec.transferPublic]; omega⟩
  revert e1 h1 h2 h3 h4
  generalize payers.length = n
  generalize payees.length = m
  intro h1 h2 e1 h3 h4
  refine isSize_unique e1 ?_
  interval_cases n <;> interval_cases m <;>
    first
    | exact isSize_of (k := 12) (by decide) (by decide)
    | exact isSize_of (k := 13) (by decide) (by decide)
    | exact isSize_of (k := 14) (by decide) (by decide)

omit [DecidableEq F] [ScalarRepr F] in
theorem ends_new {α : Type} {m : Build F α} {c : Cost} (h : Ends m c) {a : α} {cs : CS F} (hb : m CS.new = some (a, cs))
    (g v k : Nat) (ps : List Nat) (hc : c = ⟨g, v, ps⟩) (h1 : g ≤ 2 ^ (k + 1)) (h2 : 2 ^ k < g) :
    cs.gates.length = 2 ^ (k + 1) ∧ cs.numVars = v + 2 ∧ cs.pubCons = ps := by
  obtain ⟨e1, e2, e3⟩ := h.run _ _ _ hb
  subst hc
  refine ⟨?_, by rw [e2]; simp [CS.new]; omega, by rw [e3]; simp [CS.new]⟩
  rw [e1]
  simp only [CS.new, List.length_nil, Nat.zero_add]
  exact isSize_unique (isSize_next _) (isSize_of h1 h2)

/-- C93: from a non-confidential record. -/
theorem C93_ar_to_abar (p : Rescue.Params F) (hr : p.numRounds = 12) (t : Payee F) (vars : PayeeVars) (cs : CS F)
    (hb : buildArToAbar p t CS.new = some (vars, cs)) :
    cs.gates.length = 512 ∧ cs.numVars = 304 ∧ cs.pubCons = [0, 1, 298] := by
  exact ends_new (ends_arToAbar p t) hb 299 302 8 [0, 1, 298] (by rw [hr]) (by decide) (by decide)

/-- C93: from a confidential record. -/
theorem C93_bar_to_abar (p : Rescue.Params F) (hr : p.numRounds = 12) (dbg : Bool) (t : Payee F) (wit : InspWitness ristretto F)
    (vars : BarVars F) (cs : CS F) (hb : buildBarToAbar p dbg ristretto t wit CS.new = some (vars, cs)) :
    cs.gates.length = 2048 ∧ cs.numVars = 2830 ∧ cs.pubCons = (List.range 26).map (1313 + ·) := by
  exact ends_new (ends_barToAbar p dbg t wit) hb 1339 2828 10 _ (by rw [hr]; decide +kernel) (by decide) (by decide)

/-- C93: to a non-confidential record, from a tree of depth 20. -/
theorem C93_abar_to_ar (p : Rescue.Params F) (hr : p.numRounds = 12) (dbg : Bool) (wit : FoldWitness secq256k1 F)
    (s : Payer F) (hs : s.path.length = 20) (pk : PK F) (sk : SK F) (vars : AbarVars FoldVars) (cs : CS F)
    (hb : buildAbarToAr p (foldingCircuit p dbg secq256k1 secpOrderBytes wit) s pk sk CS.new = some (vars, cs)) :
    cs.gates.length = 8192 ∧ cs.numVars = 9148 ∧
      cs.pubCons = (List.range 4).map (3861 + ·) ++ (List.range 37).map (6886 + ·) := by
  have hc : cmpCost (secpOrderBytes.flatMap byteBits) = 448 := by decide +kernel
  exact ends_new (ends_abarToAr p dbg secpOrderBytes wit rfl s pk sk) hb 6923 9146 12 _ (by rw [hr, hc, hs]; decide +kernel)
    (by decide) (by decide)

/-- C93: to a confidential record, from a tree of depth 20. -/
theorem C93_abar_to_bar (p : Rescue.Params F) (hr : p.numRounds = 12) (dbg : Bool) (fw : FoldWitness secq256k1 F)
    (s : Payer F) (hs : s.path.length = 20) (pk : PK F) (sk : SK F) (wit : InspWitness ristretto F)
    (vars : AbarBarVars F FoldVars) (cs : CS F)
    (hb : buildAbarToBar p (foldingCircuit p dbg secq256k1 secpOrderBytes fw) dbg ristretto s pk sk wit CS.new = some (vars, cs)) :
    cs.gates.length = 8192 ∧ cs.numVars = 11674 ∧
      cs.pubCons = (List.range 27).map (4878 + ·) ++ (List.range 37).map (7926 + ·) := by
  have hc : cmpCost (secpOrderBytes.flatMap byteBits) = 448 := by decide +kernel
  exact ends_new (ends_abarToBar p dbg secpOrderBytes fw rfl s pk sk wit) hb 7963 11672 12 _
    (by rw [hr, hc, hs]; decide +kernel) (by decide) (by decide)

/-! ### The circuits of setup -/

theorem bls_rounds : Rescue.blsParams.numRounds = 12 := rfl

/-- C93: setup builds the circuit of every number of inputs and outputs and every depth, with the numbers above. -/
theorem C93_setup_transfer (dbg : Bool) (feeType : ZMod Bls.r) (n m d : Nat) (hn : 0 < n) (hm : 0 < m) :
    ∃ cs, transferCs Rescue.blsParams dbg secq256k1 secpOrderBytes feeType n m d = some cs ∧
      Spec.IsSize (Spec.transferGates d n m) cs.gates.length ∧ cs.numVars = Spec.transferVars d n m ∧
      cs.pubCons = Spec.transferPublic d n m := by
  obtain ⟨comm, hh⟩ := sampleFold_honest
  have hp := goodBls
  have hr := bls_rounds
  generalize Rescue.blsParams = p at hp hh hr
  have hv0 : ScalarRepr.val (0 : ZMod Bls.r) = 0 := by
    have := sample_val 0 (by norm_num)
    simpa using this
  obtain ⟨vars, cs, -, -, hb, -⟩ := C67_transfer_folding_complete p hp dbg secq256k1 secq_fold secpOrderBytes secpOrder_ok.1
    (sampleFold comm) hh (List.replicate n ⟨0, 0, feeType, 0, List.replicate d fakeNode⟩)
    (List.replicate m ⟨0, 0, feeType, samplePk⟩) 0 feeType
    (payerRoot p (Anon.Spec.pkWords 5 7) ⟨0, 0, feeType, 0, List.replicate d fakeNode⟩) (by simp; omega) (by simp; omega) (by
      intro s hs
      obtain rfl := List.eq_of_mem_replicate hs
      refine ⟨fun x hx => ?_, by simp [hv0], rfl⟩
      obtain rfl := List.eq_of_mem_replicate hx
      exact ⟨.inr (.inl ⟨rfl, rfl⟩)⟩) (by
      intro s hs
      obtain rfl := List.eq_of_mem_replicate hs
      simp [hv0]) {
        hasFee := ⟨_, List.mem_replicate.mpr ⟨by omega, rfl⟩, rfl⟩
        outIn := fun t ht => ⟨_, List.mem_replicate.mpr ⟨by omega, rfl⟩, by rw [List.eq_of_mem_replicate ht]⟩
        inOut := fun s hs h => absurd (by rw [List.eq_of_mem_replicate hs]) h
        balance := by
          intro t
          have e1 : ∀ l : List (Payer (ZMod Bls.r)), (∀ s ∈ l, s.amount = 0) →
              (l.map (fun s => ScalarRepr.val s.amount)).sum = 0 := by
            intro l hl
            refine List.sum_eq_zero fun x hx => ?_
            obtain ⟨s, hs, rfl⟩ := List.mem_map.mp hx
            rw [hl s hs, hv0]
          have e2 : ∀ l : List (Payee (ZMod Bls.r)), (∀ s ∈ l, s.amount = 0) →
              (l.map (fun s => ScalarRepr.val s.amount)).sum = 0 := by
            intro l hl
            refine List.sum_eq_zero fun x hx => ?_
            obtain ⟨s, hs, rfl⟩ := List.mem_map.mp hx
            rw [hl s hs, hv0]
          rw [e1, e2, hv0]
          · simp
          · intro s hs
            rw [List.eq_of_mem_replicate (List.mem_of_mem_filter hs)]
          · intro s hs
            rw [List.eq_of_mem_replicate (List.mem_of_mem_filter hs)] }
  obtain ⟨cs0, h0, -⟩ := C88_transfer_keys p dbg secq256k1 secq_fold (by decide +kernel) secpOrderBytes feeType (sampleFold comm)
    hh.consistent _ _ d (fun s hs => by rw [List.eq_of_mem_replicate hs]; simp) _ _ 0 vars cs hb
  rw [List.length_replicate, List.length_replicate] at h0
  refine ⟨cs0, h0, ?_⟩
  rw [transferCs, Option.map_eq_some_iff] at h0
  obtain ⟨⟨vars0, cs1⟩, h1, rfl⟩ := h0
  have := C93_transfer p hr dbg _ d _ _ _ _ _ _ (fun s hs => by rw [List.eq_of_mem_replicate hs]; simp [fakePayer]) vars0 cs1 h1
  simpa only [List.length_replicate] using this

/-- C93: setup builds the circuits of the four conversions, with the sizes above. -/
theorem C93_setup_conversions (dbg : Bool) (pk : PK (ZMod Bls.r)) :
    (∃ cs, arToAbarCs Rescue.blsParams pk = some cs ∧ cs.gates.length = 512) ∧
    (∃ cs, barToAbarCs Rescue.blsParams dbg ristretto pk = some cs ∧ cs.gates.length = 2048) ∧
    (∃ cs, abarToArCs Rescue.blsParams dbg secq256k1 secpOrderBytes 20 = some cs ∧ cs.gates.length = 8192) ∧
    (∃ cs, abarToBarCs Rescue.blsParams dbg secq256k1 ristretto secpOrderBytes 20 = some cs ∧ cs.gates.length = 8192) := by
  obtain ⟨comm, hh⟩ := sampleFold_honest
  obtain ⟨icomm, hi⟩ := sampleInsp_honest
  have hp := goodBls
  have hr := bls_rounds
  generalize Rescue.blsParams = p at hp hh hi hr
  have hg : ∀ n ∈ List.replicate 20 (fakeNode : MTNode (ZMod Bls.r)), GoodNode n := by
    intro n hn
    obtain rfl := List.eq_of_mem_replicate hn
    exact ⟨.inr (.inl ⟨rfl, rfl⟩)⟩
  refine ⟨?_, ?_, ?_, ?_⟩
  · obtain ⟨vars, cs, hb, -⟩ := C73_ar_to_abar_complete p hp (fakePayee pk)
    exact ⟨cs, by rw [arToAbarCs, hb]; rfl, (C93_ar_to_abar p hr _ vars cs hb).1⟩
  · obtain ⟨vars, cs, -, hb, -⟩ := C75_bar_to_abar_complete p hp dbg ristretto ristretto_insp (sampleInsp icomm) 7 9 hi 8 samplePk
    obtain ⟨cs0, h0, -⟩ := C88_bar_to_abar_keys p dbg ristretto ristretto_insp pk _ _ hi.consistent vars cs hb
    refine ⟨cs0, h0, ?_⟩
    rw [barToAbarCs, Option.map_eq_some_iff] at h0
    obtain ⟨⟨vars0, cs1⟩, h1, rfl⟩ := h0
    exact (C93_bar_to_abar p hr dbg _ _ vars0 cs1 h1).1
  · obtain ⟨vars, cs, -, hb, -⟩ := C74_abar_to_ar_complete p hp dbg secq256k1 secq_fold secpOrderBytes
      secpOrder_ok.1 (sampleFold comm) hh ⟨0, 7, 9, 0, List.replicate 20 fakeNode⟩ _ hg rfl
    obtain ⟨cs0, h0, -⟩ := C88_abar_to_ar_keys p dbg secq256k1 secq_fold (by decide +kernel) secpOrderBytes (sampleFold comm)
      hh.consistent _ _ _ vars cs hb
    rw [show List.length _ = 20 from List.length_replicate] at h0
    refine ⟨cs0, h0, ?_⟩
    rw [abarToArCs, Option.map_eq_some_iff] at h0
    obtain ⟨⟨vars0, cs1⟩, h1, rfl⟩ := h0
    exact (C93_abar_to_ar p hr dbg _ _ (by simp [fakePayer]) _ _ vars0 cs1 h1).1
  · obtain ⟨vars, cs, -, -, hb, -⟩ := C76_abar_to_bar_complete p hp dbg secq256k1 ristretto secq_fold
      ristretto_insp secpOrderBytes secpOrder_ok.1 (sampleFold comm) hh (sampleInsp icomm) 7 9 hi
      ⟨0, (7 : Nat), (9 : Nat), 0, List.replicate 20 fakeNode⟩ _ rfl rfl hg rfl
    obtain ⟨cs0, h0, -⟩ := C88_abar_to_bar_keys p dbg secq256k1 ristretto secq_fold (by decide +kernel) ristretto_insp
      secpOrderBytes (sampleFold comm) hh.consistent _ hi.consistent _ _ _ vars cs hb
    rw [show List.length _ = 20 from List.length_replicate] at h0
    refine ⟨cs0, h0, ?_⟩
    rw [abarToBarCs, Option.map_eq_some_iff] at h0
    obtain ⟨⟨vars0, cs1⟩, h1, rfl⟩ := h0
    exact (C93_abar_to_bar p hr dbg _ _ (by simp [fakePayer]) _ _ _ vars0 cs1 h1).1

end Verif.Setup
