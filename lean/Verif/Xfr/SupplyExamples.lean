import Mathlib.Algebra.Module.Prod
import Verif.Xfr.Supply

/-!
A system in which all assumptions of C104 hold, over the scalar field of BLS12-381 (any field with more than `2^192`
elements would do): commitments are pairs (value, blinding), range and equality proofs are ideal checks, and a mixing proof is
an assignment of the allocated variables that meets the constraints of mix.rs at all challenges.
-/

namespace Verif.Xfr

open Spec
open Verif.Plonk (ScalarRepr)

@[reducible] def mixT : Types where
  F := ZMod Bls.r
  G := ZMod Bls.r × ZMod Bls.r
  CG := ZMod Bls.r × ZMod Bls.r
  AT := Nat
  PK := Nat
  EK := Nat
  Ct := Unit
  IP := Unit
  ACt := Unit
  IPf := Unit
  SC := Unit
  RP := Unit
  AP := Unit
  MP := List (ZMod Bls.r)
  TPf := Unit
  OM := Unit
  KP := Nat
  Sg := Nat × Bytes

/-- the assignment `s` meets the constraints of mix.rs at all challenges -/
def MixMet (ins outs : List ((ZMod Bls.r × ZMod Bls.r) × (ZMod Bls.r × ZMod Bls.r))) (s : List (ZMod Bls.r)) : Prop :=
  ∃ g st, R1cs.mix (ins.map fun c => (c.1.1, c.2.1)) none (outs.map fun c => (c.1.1, c.2.1)) none (R1cs.verifierWith s) =
    .ok (g, st) ∧ ∀ ch, R1cs.Satisfied st ch

open Classical in
@[reducible] noncomputable def mixE : Ext mixT where
  decompress := some
  compress := id
  identityC := (0, 0)
  B := (1, 0)
  Bb := (0, 1)
  asScalar := fun n => (n : ZMod Bls.r)
  proveRanges := fun vals blinds => some ((), List.zipWith (fun v b => ((v.toNat : ZMod Bls.r), b)) vals blinds)
  batchRanges := fun l => l.all (fun e => e.2.all (fun c => decide (c.1.val < 2 ^ 32)))
  proveAsset := fun _ coms _ => if coms.length < 2 then none else some ()
  batchAsset := fun l => l.all (fun e => allEqual (e.1.map (·.1)))
  proveMix := fun _ _ => none
  batchMix := fun l => l.all (fun e => decide (MixMet e.1 e.2.1 e.2.2))
  provePeg := fun _ _ _ _ _ => ()
  batchPeg := fun l => l.all (fun _ => true)
  acVerify := fun _ _ _ _ => true
  ser := fun b => some [UInt8.ofNat b.inputs.length, UInt8.ofNat b.outputs.length]
  pkBytes := fun n => List.replicate n 0
  sigVerify := fun pk m s => s == (pk, m)
  kpPub := id
  kpSign := fun k m => some (k, m)

theorem mix_smul (a b : ZMod Bls.r) : a • mixE.B + b • mixE.Bb = (a, b) := by
  show a • ((1, 0) : ZMod Bls.r × ZMod Bls.r) + b • ((0, 1) : ZMod Bls.r × ZMod Bls.r) = (a, b)
  simp

theorem mixE_encoding : Encoding mixE where
  dec_comp := fun _ => rfl
  comp_dec := fun c g h => by simpa using h.symm
  identity := rfl

theorem mixE_batching : Batching mixE where
  ranges := fun l => by simp
  asset := fun l => by simp
  mix := fun l => by simp
  peg := fun l => by simp

theorem mixT_order : 2 ^ 192 ≤ ScalarRepr.order mixT.F := by
  show 2 ^ 192 ≤ Bls.r
  decide +kernel

theorem mixE_prover : MixProver mixE := by
  intro ins outs s g st hrun hsat
  refine ⟨s, ?_⟩
  simp only [List.all_cons, List.all_nil, Bool.and_true, decide_eq_true_eq]
  refine ⟨g, st, ?_, hsat⟩
  simp only [MixWitness.pairs] at hrun
  have e : ((fun c : (ZMod Bls.r × ZMod Bls.r) × (ZMod Bls.r × ZMod Bls.r) => (c.1.1, c.2.1)) ∘
      fun o : (ZMod Bls.r × ZMod Bls.r) × (ZMod Bls.r × ZMod Bls.r) =>
        (mixE.compress (o.1.1 • mixE.B + o.1.2 • mixE.Bb), mixE.compress (o.2.1 • mixE.B + o.2.2 • mixE.Bb))) =
      fun o => (o.1.1, o.2.1) := by
    funext o
    simp only [Function.comp]
    rw [mix_smul, mix_smul]
    rfl
  rw [← hrun, List.map_map, List.map_map]
  exact congrArg₂ (fun a b => R1cs.mix a none b none (R1cs.verifierWith s))
    (congrArg (fun f => ins.map f) e) (congrArg (fun f => outs.map f) e)

/-- reading the commitments -/
def mixX : Extractors mixT where
  range := fun _ coms => coms.map fun c => (c.1.val, c.2)
  type := fun _ coms => ((coms.headD 0).1, coms.map (·.2))
  mix := fun s ins outs => { ins := ins, outs := outs, allocs := s, chal := fun _ => 0 }

theorem mixX_sound : mixX.Sound mixE where
  range := by
    intro rp coms h
    simp only [List.all_cons, List.all_nil, Bool.and_true, List.all_eq_true, decide_eq_true_eq] at h
    show List.Forall₂ _ coms (coms.map _)
    rw [List.forall₂_map_right_iff, List.forall₂_same]
    intro c hc
    refine ⟨h c hc, ?_⟩
    rw [mix_smul]
    show some c = some ((c.1.val : ZMod Bls.r), c.2)
    rw [ZMod.natCast_zmod_val]
  type := by
    intro coms pf h
    simp only [List.all_cons, List.all_nil, Bool.and_true] at h
    show List.Forall₂ _ coms (coms.map _)
    rw [List.forall₂_map_right_iff, List.forall₂_same]
    intro c hc
    rw [mix_smul]
    rw [allEqual_iff] at h
    refine Prod.ext ?_ rfl
    refine h _ (List.mem_map.mpr ⟨c, hc, rfl⟩) _ ?_
    cases coms with
    | nil => simp at hc
    | cons a l => exact List.mem_map.mpr ⟨a, by simp, rfl⟩
  mix := by
    intro ins outs s h
    simp only [List.all_cons, List.all_nil, Bool.and_true, decide_eq_true_eq] at h
    obtain ⟨g, st, hrun, hsat⟩ := h
    refine ⟨?_, ?_, g, st, hrun, hsat _⟩
    · show List.Forall₂ _ ins ins
      rw [List.forall₂_same]
      intro c _
      unfold MixOpens
      rw [mix_smul, mix_smul]
      exact ⟨rfl, rfl⟩
    · show List.Forall₂ _ outs outs
      rw [List.forall₂_same]
      intro c _
      unfold MixOpens
      rw [mix_smul, mix_smul]
      exact ⟨rfl, rfl⟩

theorem mix_rel (a b c d : ZMod Bls.r) (h : a • mixE.B + b • mixE.Bb = c • mixE.B + d • mixE.Bb) : a = c := by
  rw [mix_smul, mix_smul] at h
  exact congrArg Prod.fst h

theorem few_not_all {F : Type} [Fintype F] [Nonempty F] (bad : Finset (R1cs.Chal F)) (hall : ∀ x, x ∈ bad) (m : Nat)
    (hbad : bad.card ≤ m * Fintype.card F ^ 2) : Fintype.card F ≤ m := by
  have hu : bad = Finset.univ := Finset.eq_univ_iff_forall.mpr hall
  rw [hu, Finset.card_univ, Fintype.card_prod, Fintype.card_prod] at hbad
  have hp : 0 < Fintype.card F := Fintype.card_pos
  generalize Fintype.card F = q at hp hbad
  have h7 : q * (q * q) = q * q ^ 2 := by ring
  rw [h7] at hbad
  exact Nat.le_of_mul_le_mul_right hbad (by positivity)

/-- in this system nobody can break an assumption -/
theorem mixE_unbroken (ins : List (Holding mixT)) (b : XfrBody mixT) (h : BodyOk mixE b) (hl : b.inputs.length ≤ 2 ^ 64) :
    ¬ Broken mixE mixX ins b := by
  intro hb
  cases hb with
  | amounts p hp a ha hne hrel =>
    refine hne (mix_rel a _ 0 0 (hrel.trans ?_))
    rw [mix_smul]
    rfl
  | type q hq e he hne hrel => exact hne (mix_rel _ _ _ _ hrel)
  | mixAmount p hp e he hne hrel => exact hne (mix_rel _ _ _ _ hrel)
  | mixType p hp e he hne hrel => exact hne (mix_rel _ _ _ _ hrel)
  | lucky p hp g st hrun i bad hbad hfew hin =>
    unfold BodyOk at h
    rw [hp] at h
    unfold Ext.batchAssetMix at h
    obtain ⟨cs, hcs, h⟩ := Option.bind_eq_some_iff.mp h
    rw [mapM_some_forall2] at hcs
    cases hcs with
    | @cons _ c _ _ hc hnil =>
    cases hnil
    obtain ⟨ci, hci, hc⟩ := Option.bind_eq_some_iff.mp hc
    obtain ⟨co, hco, hc⟩ := Option.bind_eq_some_iff.mp hc
    simp only [pure, Option.some.injEq] at hc
    subst hc
    rw [ite_unit_iff] at h
    simp only at hci hco
    simp only [List.all_cons, List.all_nil, Bool.and_true, decide_eq_true_eq] at h
    obtain ⟨g', st', hrun', hsat⟩ := h
    have hw : mixWitness mixE mixX b p = { ins := ci, outs := co, allocs := p, chal := fun _ => 0 } := by
      unfold mixWitness; rw [hci, hco]; rfl
    rw [hw] at hrun
    have hst : st = st' := by
      have := hrun.symm.trans hrun'
      simp only [Res.ok.injEq, Prod.mk.injEq] at this
      exact this.2
    have h1 := few_not_all bad (fun x => hfew (fun _ => x) (hst ▸ hsat _)) _ hbad
    have hr : Fintype.card (ZMod Bls.r) = Bls.r := ZMod.card Bls.r
    rw [hr] at h1
    have h2 := Nat.pow_le_pow_left hl 2
    have h3 : 2 ^ 192 ≤ Bls.r := mixT_order
    revert h1 h2 h3 hl
    generalize Bls.r = q, b.inputs.length ^ 2 = m, b.inputs.length = k
    intro h1 h2 h3 hl
    norm_num at h2 h3 hl
    omega

/-- a record with hidden amount and type -/
def mixHidden (a : UInt64) (t pk : Nat) : OpenAssetRecord mixT :=
  { bar :=
      { amount := .conf (((a.toNat % 2 ^ 32 : Nat) : ZMod Bls.r), 3) (((a.toNat / 2 ^ 32 : Nat) : ZMod Bls.r), 4)
        assetType := .conf ((t : ZMod Bls.r), 5), publicKey := pk }
    amount := a, amountBlinds := (3, 4), assetType := t, typeBlind := 5 }

theorem mixHidden_wf (a : UInt64) (t pk : Nat) : WellFormed mixE (mixHidden a t pk) where
  amount := by
    simp only [mixHidden]
    rw [mix_smul, mix_smul]
    exact ⟨rfl, rfl⟩
  assetType := by
    simp only [mixHidden]
    rw [mix_smul]

/-- what such a record holds -/
def mixHolding (a : UInt64) (t : Nat) : Holding mixT :=
  { amount := a.toNat, blind := 3 + 2 ^ 32 * 4, ty := (t : ZMod Bls.r), tyBlind := 5 }

theorem mixHidden_holds (a : UInt64) (t pk : Nat) : Holds mixE (mixHidden a t pk).bar (mixHolding a t) := by
  refine ⟨a.toNat_lt, ⟨_, _, rfl, rfl, ?_⟩, ?_⟩
  · rw [mix_smul]
    have : a.toNat = a.toNat % 2 ^ 32 + 2 ^ 32 * (a.toNat / 2 ^ 32) := by omega
    refine Prod.ext ?_ ?_
    · show ((a.toNat % 2 ^ 32 : Nat) : ZMod Bls.r) + 2 ^ 32 * ((a.toNat / 2 ^ 32 : Nat) : ZMod Bls.r) =
        ((a.toNat : Nat) : ZMod Bls.r)
      conv_rhs => rw [this]
      push_cast
      rfl
    · rfl
  · show some _ = some _
    rw [mix_smul]
    rfl

/-- a note with a mixing proof, signed by the owner `pk` of the inputs -/
def mixNote (ins outs : List (OpenAssetRecord mixT)) (pf : List (ZMod Bls.r)) (pks : List Nat) : XfrNote mixT :=
  { body :=
      { inputs := ins.map (·.bar), outputs := outs.map (·.bar), amountProof := .assetMix pf, tracingProofs := []
        inputsIdentityProofs := ins.map fun _ => [], outputsIdentityProofs := outs.map fun _ => []
        tracingMemos := (ins ++ outs).map fun _ => [], ownersMemos := outs.map fun _ => none }
    signatures := pks.map fun k => (k, [UInt8.ofNat ins.length, UInt8.ofNat outs.length]) }

/-- no tracing -/
def mixPolicies (i o : Nat) : Policies mixT :=
  { valid := true, inputsPolicies := List.replicate i [], inputsSigComs := List.replicate i none,
    outputsPolicies := List.replicate o [], outputsSigComs := List.replicate o none }

/-- C104 is violated in a system where all assumptions hold and nobody can break one.  One unit of type 1 is consumed by a
note that its owner signed and that passes full verification; the outputs hold a billion units of type 7. -/
theorem C104_supply_violated : ∃ (n : XfrNote mixT) (L' : List (BlindAssetRecord mixT × Holding mixT)),
    mixE.verifyNote n (mixPolicies 1 2) = some () ∧
    Run mixE mixX [((mixHidden 1 1 10).bar, mixHolding 1 1)] [([mixHolding 1 1], n.body)] L' ∧
    ¬ Broken mixE mixX [mixHolding 1 1] n.body ∧
    held (7 : ZMod Bls.r) [mixHolding 1 1] = 0 ∧ held (7 : ZMod Bls.r) (L'.map Prod.snd) = 1000000000 := by
  have hwf : ∀ o ∈ [mixHidden 1000000000 7 20, mixHidden 5 1 20], WellFormed mixE o := by
    intro o ho
    simp only [List.mem_cons, List.not_mem_nil, or_false] at ho
    rcases ho with rfl | rfl <;> exact mixHidden_wf _ _ _
  obtain ⟨pf, hpf⟩ := C104_money_from_nothing_violated mixE (le_trans (by norm_num) mixT_order) mixE_encoding mixE_batching
    mixE_prover (mixHidden 1 1 10) [mixHidden 1000000000 7 20, mixHidden 5 1 20] (mixHidden_wf _ _ _) hwf (by simp)
  let n := mixNote [mixHidden 1 1 10] [mixHidden 1000000000 7 20, mixHidden 5 1 20] pf [10]
  have hrec : mixE.batchAssetRecords [n.body] = some () := hpf n.body rfl rfl rfl
  have hacc : mixE.batchVerifyNotes [n] [mixPolicies 1 2] = some () := by
    unfold Ext.batchVerifyNotes
    rw [if_pos (by rfl)]
    unfold Ext.batchVerifyBodies
    simp only [List.map_cons, List.map_nil, hrec, Option.bind_eq_bind, Option.bind_some]
    rfl
  refine ⟨n, _, hacc, Run.step (ins := [((mixHidden 1 1 10).bar, mixHolding 1 1)]) (rest := []) (.nil _) hacc (by simp)
    (by simp [n, mixNote]) (by simp [n, mixNote]) rfl (List.Perm.refl _), ?_, ?_, ?_⟩
  · exact mixE_unbroken _ _ ((batchAssetRecords_iff mixE mixE_batching _).mp hrec _ (by simp)) (by simp [n, mixNote])
  · have : ¬ (1 : ZMod Bls.r) = 7 := by decide +kernel
    simp [held, mixHolding, this]
  · have h1 : ¬ ((1 : Nat) : ZMod Bls.r) = 7 := by decide +kernel
    have h7 : ((7 : Nat) : ZMod Bls.r) = 7 := by norm_num
    have hv : ScalarRepr.val (F := ZMod Bls.r) ((1000000000 : Nat) : ZMod Bls.r) = 1000000000 :=
      ScalarRepr.val_cast (F := ZMod Bls.r) 1000000000 (lt_of_lt_of_le (by norm_num) mixT_order)
    have hp := processBars_of_wf mixE mixE_encoding [mixHidden 1000000000 7 20, mixHidden 5 1 20] hwf
    have hw : (mixWitness mixE mixX n.body pf).outs =
        [((((1000000000 : Nat) : ZMod Bls.r), 3 + 2 ^ 32 * 4), (((7 : Nat) : ZMod Bls.r), 5)),
          ((((5 : Nat) : ZMod Bls.r), 3 + 2 ^ 32 * 4), (((1 : Nat) : ZMod Bls.r), 5))] := by
      show (mixE.processBars ([mixHidden 1000000000 7 20, mixHidden 5 1 20].map (·.bar))).getD [] = _
      rw [hp]
      simp only [List.map_cons, List.map_nil, Option.getD_some]
      rw [mix_smul, mix_smul, mix_smul, mix_smul]
      rfl
    have ho : outHoldings mixE mixX n.body =
        [{ amount := ScalarRepr.val (F := ZMod Bls.r) ((1000000000 : Nat) : ZMod Bls.r), blind := 3 + 2 ^ 32 * 4
           ty := ((7 : Nat) : ZMod Bls.r), tyBlind := 5 },
         { amount := ScalarRepr.val (F := ZMod Bls.r) ((5 : Nat) : ZMod Bls.r), blind := 3 + 2 ^ 32 * 4
           ty := ((1 : Nat) : ZMod Bls.r), tyBlind := 5 }] := by
      have hA : n.body.amountProof = .assetMix pf := rfl
      unfold outHoldings outAmounts outTypes
      rw [hA]
      simp only [hw]
      rfl
    rw [List.append_nil, List.map_snd_zip (by rw [ho]; rfl), ho]
    simp only [held, List.map_cons, List.map_nil, List.sum_cons, List.sum_nil]
    rw [if_pos h7, if_neg h1, hv, Nat.add_zero]

/-- a mixing transfer of two hidden records of different types, accepted -/
theorem mixE_swap : ∃ n : XfrNote mixT, mixE.verifyNote n (mixPolicies 2 2) = some () ∧
    n.body.inputs = [(mixHidden 5 1 10).bar, (mixHidden 7 2 11).bar] ∧
    n.body.outputs = [(mixHidden 7 2 20).bar, (mixHidden 5 1 21).bar] ∧ ∃ pf, n.body.amountProof = .assetMix pf := by
  have hwf : ∀ o ∈ [mixHidden 5 1 10, mixHidden 7 2 11], WellFormed mixE o := by
    intro o ho
    simp only [List.mem_cons, List.not_mem_nil, or_false] at ho
    rcases ho with rfl | rfl <;> exact mixHidden_wf _ _ _
  have hwf' : ∀ o ∈ [mixHidden 7 2 20, mixHidden 5 1 21], WellFormed mixE o := by
    intro o ho
    simp only [List.mem_cons, List.not_mem_nil, or_false] at ho
    rcases ho with rfl | rfl <;> exact mixHidden_wf _ _ _
  obtain ⟨g, stp, stv, -, hrun, -, hsat⟩ := R1cs.C27_mix_complete (F := ZMod Bls.r) [(5, ((1 : Nat) : ZMod Bls.r)), (7, ((2 : Nat) : ZMod Bls.r))]
    [(7, ((2 : Nat) : ZMod Bls.r)), (5, ((1 : Nat) : ZMod Bls.r))] (by simp) (by simp)
    (fun t => by simp only [List.map_cons, List.map_nil, List.mem_cons, List.not_mem_nil, or_false]; tauto)
    (fun t => by rw [R1cs.total_cons, R1cs.total_cons, R1cs.total_cons, R1cs.total_cons]; omega)
    (by simp) (le_trans (by norm_num) mixT_order)
  let n := mixNote [mixHidden 5 1 10, mixHidden 7 2 11] [mixHidden 7 2 20, mixHidden 5 1 21] stp.allocs [10, 11]
  have hrec : mixE.batchAssetRecords [n.body] = some () := by
    rw [batchAssetRecords_iff mixE mixE_batching]
    intro b hb
    rw [List.mem_singleton.mp hb]
    show mixE.batchAssetMix [([mixHidden 5 1 10, mixHidden 7 2 11].map (·.bar), [mixHidden 7 2 20, mixHidden 5 1 21].map (·.bar),
      stp.allocs)] = some ()
    unfold Ext.batchAssetMix
    simp only [List.mapM_cons, List.mapM_nil, processBars_of_wf mixE mixE_encoding _ hwf,
      processBars_of_wf mixE mixE_encoding _ hwf', Option.bind_eq_bind, Option.bind_some, pure]
    refine if_pos ?_
    simp only [List.all_cons, List.all_nil, Bool.and_true, decide_eq_true_eq]
    refine ⟨g, stv, ?_, fun ch => (hsat ch).2⟩
    simp only [List.map_cons, List.map_nil]
    rw [mix_smul, mix_smul, mix_smul, mix_smul, mix_smul, mix_smul, mix_smul, mix_smul]
    exact hrun
  refine ⟨n, ?_, rfl, rfl, _, rfl⟩
  unfold Ext.verifyNote Ext.batchVerifyNotes
  rw [if_pos (by rfl)]
  unfold Ext.batchVerifyBodies
  simp only [List.map_cons, List.map_nil, hrec, Option.bind_eq_bind, Option.bind_some]
  rfl

/-- The transfer meets the hypotheses of `C104_supply_partial`, in a ledger that also holds a third record; no assumption can
be broken here, so the ledger holds the same units of every type before and after. -/
example : ∃ (ss : List (List (Holding mixT) × XfrBody mixT)) (L' : List (BlindAssetRecord mixT × Holding mixT)),
    Run mixE mixX [((mixHidden 9 1 30).bar, mixHolding 9 1), ((mixHidden 5 1 10).bar, mixHolding 5 1),
      ((mixHidden 7 2 11).bar, mixHolding 7 2)] ss L' ∧ ss.length = 1 ∧
    L'.map Prod.fst = [(mixHidden 7 2 20).bar, (mixHidden 5 1 21).bar, (mixHidden 9 1 30).bar] ∧
    ∀ t, held t (L'.map Prod.snd) = held t [mixHolding 9 1, mixHolding 5 1, mixHolding 7 2] := by
  obtain ⟨n, hacc, hi, ho, pf, hp⟩ := mixE_swap
  have hrun := Run.step (ins := [((mixHidden 5 1 10).bar, mixHolding 5 1), ((mixHidden 7 2 11).bar, mixHolding 7 2)])
    (rest := [((mixHidden 9 1 30).bar, mixHolding 9 1)])
    (Run.nil (E := mixE) (X := mixX) [((mixHidden 9 1 30).bar, mixHolding 9 1), ((mixHidden 5 1 10).bar, mixHolding 5 1),
      ((mixHidden 7 2 11).bar, mixHolding 7 2)]) hacc (n := n) (by simp) (by rw [hi]; simp) (by rw [ho]; simp) (by rw [hi]; rfl)
    (List.perm_append_comm (l₁ := [_, _]) (l₂ := [_]))
  refine ⟨_, _, hrun, rfl, ?_, ?_⟩
  · rw [List.map_append, List.map_fst_zip, ho]
    · rfl
    · exact (holdings_length mixE _ _ _).ge
  · rcases C104_supply_partial mixE mixT_order (fun _ => rfl) mixE_batching mixX mixX_sound _ _ _ hrun (by
      intro e he
      simp only [List.mem_cons, List.not_mem_nil, or_false] at he
      rcases he with rfl | rfl | rfl <;> exact mixHidden_holds _ _ _) (by
      intro s hs
      rw [List.nil_append, List.mem_singleton] at hs
      subst hs
      intro p _
      simp only
      rw [hi, ho]
      simp) with ⟨s, hs, hb⟩ | ⟨_, h⟩
    · rw [List.nil_append, List.mem_singleton] at hs
      subst hs
      exact absurd hb (mixE_unbroken _ _ (bodyOk_of_accepted mixE mixE_batching _ _ hacc n (by simp)) (by rw [hi]; simp))
    · intro t
      refine (h t).2 ?_
      intro s hs
      rw [List.nil_append, List.mem_singleton] at hs
      subst hs
      unfold Exact
      simp only [hp, hi, ho]
      rfl

/-- and every history of such a ledger can be told with holdings -/
example : ∃ l', Ledger mixE [(mixHidden 5 1 10).bar, (mixHidden 7 2 11).bar] l' ∧
    l' = [(mixHidden 7 2 20).bar, (mixHidden 5 1 21).bar] := by
  obtain ⟨n, hacc, hi, ho, pf, hp⟩ := mixE_swap
  refine ⟨_, .step (rest := []) (.nil _) hacc (n := n) (by simp) (by rw [hi]; simp) (by rw [ho]; simp) (by rw [hi]; exact .refl _), ?_⟩
  rw [ho]
  rfl

end Verif.Xfr
