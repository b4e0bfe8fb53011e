import Verif.Anon.Convert
import Verif.Plonk.Cost
import Verif.Setup.Model

/-!
C93: how large the circuits are.
-/

namespace Verif.SimFr

open Verif.Plonk
open Costs (pureAny foldlM_any fail mapM_len)

set_option linter.unusedSectionVars false

variable {F : Type} [Field F]

theorem costs_newGate (vs : List Nat) (x : F) (g : Nat → Gate F) : Costs (newGate vs x g) ⟨1, 1, []⟩ Any :=
  costs_varGate _ _ _

theorem costs_sub (P : Params) (a b : SimVar F) : Costs (a.sub P b) ⟨P.limbs, P.limbs, []⟩ (fun v => v.var.length = P.limbs) := by
  unfold SimVar.sub
  refine Costs.cost (Costs.bind (Costs.liftM _) (fun _ _ => Costs.bind (mapM_len _ (fun _ => ⟨1, 1, []⟩) _ (fun _ _ =>
    Costs.cost (Costs.bind (Costs.liftM _) (fun _ _ => Costs.bind (Costs.liftM _) (fun _ _ => Costs.bind (Costs.liftM _)
      (fun _ _ => Costs.bind (Costs.liftM _) (fun _ _ => costs_newGate _ _ _))))) rfl))
        (fun _ h => Costs.pure _ _ (by simpa using h)))) ?_
  rw [Cost.sum_map_const]
  simp [Cost.seq, Cost.zero]

/-- gates (and variables) of one multiplication -/
def mulCost (P : Params) : Nat := ((List.range P.limbsMul).map (fun i => (lefts P.limbs i).length)).sum

theorem costs_mulInner (a b : SimVar F) (i : Nat) (s : Nat × F) (left : Nat) : Costs (mulInner a b i s left) ⟨1, 1, []⟩ Any :=
  Costs.cost (Costs.bind (Costs.liftM _) (fun _ _ => Costs.bind (Costs.liftM _) (fun _ _ => Costs.bind (Costs.liftM _)
    (fun _ _ => Costs.bind (Costs.liftM _) (fun _ _ => Costs.bind (costs_newGate _ _ _) (fun _ _ => pureAny _)))))) rfl

theorem costs_mul (P : Params) (a b : SimVar F) : Costs (a.mul P b) ⟨mulCost P, mulCost P, []⟩ Any := by
  unfold SimVar.mul
  refine Costs.cost (Costs.bind (Costs.liftM _) (fun _ _ => Costs.bind (mapM_len _
    (fun i => ⟨(lefts P.limbs i).length, (lefts P.limbs i).length, []⟩) _ (fun i _ =>
      Costs.cost (Costs.bind (foldlM_any _ (fun _ => ⟨1, 1, []⟩) _ _ (fun _ _ _ => costs_mulInner _ _ _ _ _))
        (fun _ _ => pureAny _)) (by rw [Cost.sum_map_const]; simp [Cost.seq, Cost.zero])))
        (fun _ h => pureAny _))) ?_
  rw [Cost.sum_map_plain]
  simp [Cost.seq, Cost.zero, mulCost]

theorem costs_allocInput (P : Params) (v : Sim F) :
    Costs (allocInput P v) ⟨0, P.limbs, []⟩ (fun v => v.var.length = P.limbs) := by
  unfold allocInput
  refine Costs.cost (Costs.bind (mapM_len _ (fun _ => ⟨0, 1, []⟩) _ (fun _ _ =>
    Costs.cost (Costs.bind (Costs.liftM _) (fun _ _ => costs_newVar _)) rfl))
      (fun _ h => Costs.pure _ _ (by simpa using h))) ?_
  rw [Cost.sum_map_const]
  simp [Cost.seq, Cost.zero]

/-- the bits of limb `i` -/
def limbBits (P : Params) (i : Nat) : Nat := if i = P.limbs - 1 then P.top else P.bits

/-- a new variable and a range check -/
def limbCost (n : Nat) : Cost := ⟨(rangeCost n).gates, 1 + (rangeCost n).vars, []⟩

/-- the cost of `alloc_witness` -/
def allocCost (P : Params) : Cost := .sum ((List.range P.limbs).map (fun i => limbCost (limbBits P i)))

theorem flatMap_len {α : Type} {n : Nat → Nat} {l : List Nat} {bs : List (α × List Nat)}
    (h : List.Forall₂ (fun i b => b.2.length = n i) l bs) : (bs.flatMap Prod.snd).length = (l.map n).sum := by
  induction h with
  | nil => rfl
  | cons h _ ih => simp [ih, h]

variable [ScalarRepr F]

theorem costs_allocWitness (P : Params) (v : Sim F) : Costs (allocWitness P v) (allocCost P)
    (fun a => a.1.var.length = P.limbs ∧ a.2.length = ((List.range P.limbs).map (limbBits P)).sum) := by
  unfold allocWitness
  refine Costs.ite (fun _ => ?_) (fun _ => fail _ _)
  refine Costs.cost (Costs.bind (Costs.mapM _ (fun i => limbCost (limbBits P i)) (fun i b => b.2.length = limbBits P i) _ (fun i _ =>
    Costs.cost (Costs.bind (Costs.liftM _) (fun _ _ => Costs.bind (costs_newVar _) (fun _ _ => Costs.bind (costs_rangeCheck _ _)
      (fun b hb => Costs.pure _ _ hb)))) ?_))
      (fun l h => Costs.pure _ _ ⟨?_, flatMap_len h⟩)) ?_
  · unfold limbCost rangeCost limbBits
    split <;> simp [Cost.seq, Cost.zero]
  · have := h.length_eq
    simp at this
    simp [← this]
  · simp [allocCost]

/-- the cost of `alloc_witness_bounded_total_bits` -/
def boundedCost (P : Params) (total : Nat) : Cost :=
  .sum ((List.range P.limbs).map (fun i => if total - i * P.bits ≠ 0 then limbCost (min (total - i * P.bits) P.bits) else .zero))

theorem costs_allocBounded (P : Params) (v : Sim F) (total : Nat) : Costs (allocBounded P v total) (boundedCost P total)
    (fun a => a.1.var.length = P.limbs) := by
  unfold allocBounded
  refine Costs.ite (fun _ => ?_) (fun _ => fail _ _)
  refine Costs.cost (Costs.bind (mapM_len _
    (fun i => if total - i * P.bits ≠ 0 then limbCost (min (total - i * P.bits) P.bits) else .zero) _ (fun i _ => ?_))
      (fun l h => Costs.pure _ _ ?_)) ?_
  · by_cases hc : total - i * P.bits ≠ 0
    · rw [if_pos hc, if_pos hc]
      refine Costs.cost (Costs.bind (Costs.liftM _) (fun _ _ => Costs.bind (costs_newVar _) (fun _ _ => Costs.bind
        (costs_rangeCheck _ _) (fun b hb => pureAny _)))) ?_
      unfold limbCost rangeCost
      simp [Cost.seq, Cost.zero]
    · rw [if_neg hc, if_neg hc]
      exact pureAny _
  · split <;> simpa using h
  · simp [boundedCost]

theorem costs_addMul (P : Params) (a b : SimMulVar F) : Costs (a.add P b) ⟨P.limbsMul, P.limbsMul, []⟩ Any := by
  unfold SimMulVar.add
  refine Costs.cost (Costs.bind (Costs.liftM _) (fun _ _ => Costs.bind (mapM_len _ (fun _ => ⟨1, 1, []⟩) _ (fun _ _ =>
    Costs.cost (Costs.bind (Costs.liftM _) (fun _ _ => Costs.bind (Costs.liftM _)
      (fun _ _ => Costs.bind (Costs.liftM _) (fun _ _ => costs_newGate _ _ _)))) rfl))
        (fun _ h => pureAny _))) ?_
  rw [Cost.sum_map_const]
  simp [Cost.seq, Cost.zero]

theorem costs_subMul (P : Params) (a : SimMulVar F) (b : SimVar F) : Costs (a.sub P b) ⟨P.limbs, P.limbs, []⟩ Any := by
  unfold SimMulVar.sub
  refine Costs.cost (Costs.bind (Costs.liftM _) (fun _ _ => Costs.bind (mapM_len _ (fun _ => ⟨1, 1, []⟩) _ (fun _ _ =>
    Costs.cost (Costs.bind (Costs.liftM _) (fun _ _ => Costs.bind (Costs.liftM _) (fun _ _ => Costs.bind (Costs.liftM _)
      (fun _ _ => Costs.bind (Costs.liftM _) (fun _ _ => costs_newGate _ _ _))))) rfl))
        (fun _ h => pureAny _))) ?_
  rw [Cost.sum_map_const]
  simp [Cost.seq, Cost.zero]

theorem costs_rkInner (P : Params) (kv : List Nat) (i : Nat) (l : List Nat) (res : Nat) :
    Costs (rkInner P kv i l res : Build F Nat) ⟨(l.length + 2) / 3, (l.length + 2) / 3, []⟩ Any := by
  induction l, res using rkInner.induct with
  | case1 res => rw [rkInner]; exact pureAny _
  | case2 res a =>
    rw [rkInner]
    exact Costs.cost (Costs.bind (Costs.liftM _) (fun _ _ => Costs.bind (Costs.liftM _) (fun _ _ => costs_linearCombine ..)))
      (by simp [Cost.seq, Cost.zero])
  | case3 res a b =>
    rw [rkInner]
    exact Costs.cost (Costs.bind (Costs.liftM _) (fun _ _ => Costs.bind (Costs.liftM _) (fun _ _ => Costs.bind (Costs.liftM _)
      (fun _ _ => Costs.bind (Costs.liftM _) (fun _ _ => costs_linearCombine ..))))) (by simp [Cost.seq, Cost.zero])
  | case4 res a b c rest ih =>
    rw [rkInner]
    refine Costs.cost (Costs.bind (Costs.liftM _) (fun _ _ => Costs.bind (Costs.liftM _) (fun _ _ => Costs.bind (Costs.liftM _)
      (fun _ _ => Costs.bind (Costs.liftM _) (fun _ _ => Costs.bind (Costs.liftM _) (fun _ _ => Costs.bind (Costs.liftM _)
        (fun _ _ => Costs.bind (costs_linearCombine ..) (fun _ _ => ih _)))))))) ?_
    simp [Cost.seq, Cost.zero]
    omega

theorem costs_groupStep (P : Params) (a : SimMulVar F) (rk : List F) (rkv : List Nat) (i : Nat) :
    Costs (groupStep P a rk rkv i) ⟨if i * 2 + 1 < P.limbsMul then 2 else 0, if i * 2 + 1 < P.limbsMul then 2 else 0, []⟩ Any := by
  unfold groupStep
  by_cases h : i * 2 + 1 < P.limbsMul
  · simp only [if_pos h]
    exact Costs.cost (Costs.bind (Costs.liftM _) (fun _ _ => Costs.bind (Costs.liftM _) (fun _ _ => Costs.bind (Costs.liftM _)
      (fun _ _ => Costs.bind (Costs.liftM _) (fun _ _ => Costs.bind (costs_linearCombine ..) (fun _ _ => Costs.bind (Costs.liftM _)
      (fun _ _ => Costs.bind (Costs.liftM _) (fun _ _ => Costs.bind (Costs.liftM _) (fun _ _ => Costs.bind (Costs.liftM _)
      (fun _ _ => Costs.bind (costs_linearCombine ..) (fun _ _ => pureAny _))))))))))) rfl
  · simp only [if_neg h]
    exact Costs.cost (Costs.bind (Costs.liftM _) (fun _ _ => Costs.bind (Costs.liftM _) (fun _ _ => Costs.bind (Costs.liftM _)
      (fun _ _ => Costs.bind (Costs.liftM _) (fun _ _ => pureAny _))))) rfl

/-- the cost of the carries of `n` groups -/
def carryCost (P : Params) : Nat → Cost
  | 0 => .zero
  | 1 => ⟨2, 1, []⟩
  | n + 1 => Cost.seq ⟨1, 1, []⟩ (Cost.seq (rangeCost (5 + P.bits * 2)) (carryCost P n))

theorem costs_carryLoop (P : Params) (l : List (Grp F)) (cin : F) (cv extra : Nat) :
    Costs (carryLoopC P l cin cv extra) (carryCost P l.length) Any := by
  induction l generalizing cin cv extra with
  | nil => rw [carryLoopC]; exact pureAny _
  | cons g rest ih =>
    rw [carryLoopC]
    refine Costs.ite (fun _ => ?_) (fun _ => fail _ _)
    cases rest with
    | nil => exact Costs.cost (Costs.bind (costs_newGate ..) (fun _ _ => Costs.ite (fun _ => costs_insertConstantGate ..)
        (fun h => absurd rfl h))) rfl
    | cons g' rest =>
      refine Costs.cost (Costs.bind (costs_newGate ..) (fun _ _ => Costs.ite (fun h => by cases h) (fun h =>
        Costs.bind (costs_rangeCheck _ _) (fun _ _ => ih ..)))) ?_
      simp [carryCost]

/-- the cost of `enforce_zero` -/
def zeroCost (P : Params) : Cost :=
  (Cost.sum ((List.range P.limbs).map (fun i => limbCost (if i = P.limbs - 1 then P.top + 5 else P.bits)))).seq
    ((Cost.sum ((List.range P.limbsMul).map (fun i =>
        ⟨((lefts P.limbs i).length + 2) / 3, ((lefts P.limbs i).length + 2) / 3, []⟩))).seq
      ((Cost.sum ((List.range P.groups).map (fun i =>
        ⟨if i * 2 + 1 < P.limbsMul then 2 else 0, if i * 2 + 1 < P.limbsMul then 2 else 0, []⟩))).seq
        (carryCost P P.groups)))

theorem costs_enforceZero (dbg : Bool) (P : Params) (a : SimMulVar F) : Costs (a.enforceZero dbg P) (zeroCost P) Any := by
  unfold SimMulVar.enforceZero
  refine Costs.ite (fun _ => ?_) (fun _ => fail _ _)
  refine Costs.cost (Costs.bind (Costs.liftM _) (fun _ _ => Costs.ite (fun _ => fail _ _) (fun _ => Costs.bind
    (mapM_len _ (fun i => limbCost (if i = P.limbs - 1 then P.top + 5 else P.bits)) _ (fun i _ => ?_)) (fun _ _ =>
    Costs.bind (Costs.liftM _) (fun _ _ => Costs.bind (mapM_len _ _ _ (fun i _ => costs_rkInner ..)) (fun _ _ =>
    Costs.bind (mapM_len _ _ _ (fun i _ => costs_groupStep ..)) (fun g hg =>
      (show Costs _ (carryCost P P.groups) Any from ?_)))))))) ?_
  · refine Costs.cost (Costs.bind (Costs.liftM _) (fun _ _ => Costs.bind (costs_newVar _) (fun _ _ => Costs.bind
        (costs_rangeCheck _ _) (fun b hb => pureAny _)))) ?_
    unfold limbCost rangeCost
    split <;> simp [Cost.seq, Cost.zero]
  · rw [List.length_range] at hg
    exact Costs.cost (costs_carryLoop P g _ _ _) (by rw [hg])
  · simp [zeroCost]

end Verif.SimFr

namespace Verif.Anon

open Verif.Plonk Verif.SimFr Verif.StateComm
open Costs (pureAny foldlM_any fail mapM_len)

set_option linter.unusedSectionVars false

variable {F : Type} [Field F]

/-! ### Folding -/

theorem costs_gateVar (vs : List Nat) (x : F) (g : Nat → Gate F) : Costs (gateVar vs x g) ⟨1, 1, []⟩ Any :=
  costs_varGate _ _ _

theorem costs_cmpStep (s : CmpState) (x : (Nat × Bool) × Bool) :
    Costs (cmpStep s x : Build F CmpState) ⟨if x.2 then 2 else 1, if x.2 then 2 else 1, []⟩ Any := by
  unfold cmpStep
  by_cases h : x.2 = true
  · simp only [if_pos h]
    exact Costs.cost (Costs.bind (costs_gateVar ..) (fun _ _ => Costs.bind (costs_gateVar ..) (fun _ _ => pureAny _))) rfl
  · simp only [if_neg h]
    exact Costs.cost (Costs.bind (costs_gateVar ..) (fun _ _ => pureAny _)) rfl

/-- gates of the comparison with a modulus with the given bits -/
def cmpCost (modulus : List Bool) : Nat := (modulus.map (fun b => if b then 2 else 1)).sum

theorem costs_lessThanModulus (bv : List Nat) (bits modulus : List Bool) (h : bv.length = modulus.length) :
    Costs (lessThanModulus bv bits modulus : Build F Unit) ⟨cmpCost modulus + 1, cmpCost modulus, []⟩ Any := by
  unfold lessThanModulus
  refine Costs.ite (fun _ => fail _ _) (fun hl => ?_)
  have hl : bits.length = modulus.length := not_not.mp hl
  refine Costs.cost (Costs.bind (foldlM_any _ (fun x : (Nat × Bool) × Bool => ⟨if x.2 then 2 else 1, if x.2 then 2 else 1, []⟩)
    _ _ (fun _ x _ => costs_cmpStep _ x)) (fun _ _ => Costs.bind (costs_assertVars _) (fun _ _ => costs_pushGate _))) ?_
  rw [Cost.sum_map_plain, List.map_reverse, List.sum_reverse,
    show (fun x : (Nat × Bool) × Bool => if x.2 then 2 else 1) = (fun b : Bool => if b then 2 else 1) ∘ Prod.snd from rfl,
    ← List.map_map, List.map_snd_zip (by simp [h, hl])]
  rfl

theorem costs_equalAll (l l' : List Nat) (h : l.length = l'.length) : Costs (equalAll l l' : Build F Unit) ⟨l.length, 0, []⟩ Any := by
  unfold equalAll
  refine Costs.cost (foldlM_any _ (fun _ => ⟨1, 0, []⟩) _ _ (fun _ x _ => costs_equalV ..)) ?_
  rw [Cost.sum_map_const]
  simp [h]

theorem costs_packWord (P : SimFr.Params) (vs : List Nat) :
    Costs (packWordC P vs : Build F Nat) ⟨if vs.length = 5 then 2 else 1, if vs.length = 5 then 2 else 1, []⟩ Any := by
  unfold packWordC
  by_cases h : vs.length = 5
  · simp only [if_pos h]
    exact Costs.cost (Costs.bind (costs_linearCombine ..) (fun _ _ => costs_linearCombine ..)) rfl
  · simp only [if_neg h]
    exact Costs.cost (Costs.bind (costs_linearCombine ..) (fun _ _ => pureAny _)) rfl

/-- the lengths of the chunks of a list -/
theorem chunks_lengths {α : Type} (k : Nat) (l : List α) :
    (chunks k l).map List.length = (chunks k (List.replicate l.length ())).map List.length := by
  unfold chunks
  simp [Function.comp_def]

/-- gates of the packed words of `n` limbs -/
def packCost (k n : Nat) : Nat :=
  (((chunks k (List.replicate n ())).map List.length).map (fun i => if i = 5 then 2 else 1)).sum

theorem costs_packWords (P : SimFr.Params) (k : Nat) (vs : List Nat) :
    Costs ((chunks k vs).mapM (packWordC P) : Build F (List Nat)) ⟨packCost k vs.length, packCost k vs.length, []⟩
      (fun ws => ws.length = (vs.length + k - 1) / k) := by
  refine Costs.cons (mapM_len _ (fun l : List Nat => ⟨if l.length = 5 then 2 else 1, if l.length = 5 then 2 else 1, []⟩)
    _ (fun l _ => costs_packWord P l)) ?_ (fun ws h => by rw [h]; simp [chunks])
  rw [Cost.sum_map_plain, packCost, ← chunks_lengths, List.map_map]
  rfl

theorem costs_stateComm (p : Rescue.Params F) (P : SimFr.Params) (r comm : F) (vars : List Nat) (hP : perWord P = 5)
    (hv : vars.length = 36) : Costs (stateCommC p P r comm vars)
      ⟨15 + 3 * (4 + 12 * p.numRounds) + 1, 15 + 2 + 3 * (4 + 12 * p.numRounds), []⟩ Any := by
  unfold stateCommC
  refine Costs.cost (Costs.bind (costs_packWords P _ _) (fun ws hw => Costs.bind (costs_newVar _) (fun rv _ => Costs.bind
    (costs_newVar _) (fun _ _ => Costs.bind
      (show Costs _ ⟨3 * (4 + 12 * p.numRounds), 3 * (4 + 12 * p.numRounds), []⟩ Any from ?_)
      (fun _ _ => Costs.bind (costs_equalV ..) (fun _ _ => pureAny _)))))) ?_
  · rw [hP, hv] at hw
    match ws, hw with
    | [a, b, c, d, e, f, g, h], _ =>
      have e1 : spongeC p [a, b, c, d, e, f, g, h] rv = (do
          let o ← rescueCircuit p (a, b, c, d)
          let o ← rescueCircuit p (o.1, e, f, g)
          let o ← rescueCircuit p (o.1, h, rv, zeroVar)
          pure o.1) := by
        simp [spongeC, resize, chainC]
      rw [e1]
      exact Costs.cost (Costs.bind (costs_rescueCircuit p _) (fun _ _ => Costs.bind (costs_rescueCircuit p _)
        (fun _ _ => Costs.bind (costs_rescueCircuit p _) (fun _ _ => pureAny _))))
        (by simp [Cost.seq, Cost.zero]; omega)
  · rw [hP, hv, show packCost 5 36 = 15 by decide]
    simp [Cost.seq, Cost.zero]
    omega

theorem costs_publicLimbs (P : SimFr.Params) (a : SimVar F) :
    Costs (publicLimbs P a) ⟨P.limbs, 0, List.range P.limbs⟩ Any := by
  unfold publicLimbs
  refine Costs.cost (foldlM_any _ (fun _ => ⟨1, 0, [0]⟩) _ _ (fun _ x _ =>
    Costs.cost (Costs.bind (Costs.liftM _) (fun _ _ => costs_preparePi _)) rfl)) ?_
  rw [Cost.sum_map_pub]
  simp

variable [DecidableEq F] [ScalarRepr F]

theorem costs_foldKeys (P : SimFr.Params) (modulus : Bytes) (wit : FoldWitness P F) (pk : PK Nat) (sk : SK Nat)
    (hm : modulus.length = 32) (hP : P = secq256k1) : Costs (foldKeys P modulus wit pk sk)
      ⟨1310 + cmpCost (modulus.flatMap byteBits), 2049 + cmpCost (modulus.flatMap byteBits), []⟩
      (fun k => k.1.var.length = 6 ∧ k.2.1.var.length = 6 ∧ k.2.2.var.length = 6) := by
  have hl : (modulus.flatMap byteBits).length = 256 := by
    rw [List.length_flatMap]
    have : (modulus.map (fun b => (byteBits b).length)) = modulus.map (fun _ => 8) := by
      apply List.map_congr_left
      intro b _
      rfl
    rw [this]
    simp [hm]
  unfold foldKeys
  refine Costs.cost (Costs.bind (costs_rangeCheck _ _) (fun a0 h0 => Costs.bind (costs_rangeCheck _ _) (fun a1 h1 =>
    Costs.bind (costs_rangeCheck _ _) (fun a2 h2 => Costs.bind (costs_rangeCheck _ _) (fun c0 h3 =>
    Costs.bind (costs_rangeCheck _ _) (fun c1 h4 => Costs.bind (costs_lessThanModulus _ _ _ (by simp [hl, h3, h4])) (fun _ _ =>
    Costs.bind (costs_allocWitness _ _) (fun x hx => Costs.bind (costs_allocWitness _ _) (fun y hy =>
    Costs.bind (costs_allocWitness _ _) (fun s hs => Costs.ite (fun _ => fail _ _) (fun hn =>
    Costs.bind (Costs.cost (costs_equalAll _ _ (not_not.mp (not_or.mp hn).1)) (show _ = (⟨512, 0, []⟩ : Cost) from ?_)) (fun _ _ =>
    Costs.bind (Costs.cost (costs_equalAll _ _ (not_not.mp (not_or.mp hn).2)) (show _ = (⟨256, 0, []⟩ : Cost) from ?_)) (fun _ _ =>
    Costs.pure _ _ ?_))))))))))))) ?_
  · simp [(not_not.mp (not_or.mp hn).1), h0, h1, h2]
  · simp [(not_not.mp (not_or.mp hn).2), h3, h4]
  · subst hP; exact ⟨hx.1, hy.1, hs.1⟩
  · subst hP
    rw [show allocCost secq256k1 = ⟨93, 343, []⟩ by decide]
    simp [Cost.seq, Cost.zero, rangeCost]
    omega

theorem costs_foldAlloc (P : SimFr.Params) (wit : FoldWitness P F) (hP : P = secq256k1) : Costs (foldAlloc P wit)
      ⟨279, 1065, []⟩ (fun e => e.r0.var.length = 6 ∧ e.r1.var.length = 6 ∧ e.r2.var.length = 6) := by
  unfold foldAlloc
  refine Costs.cost (Costs.bind (costs_allocInput _ _) (fun _ _ => Costs.bind (costs_allocInput _ _) (fun _ _ =>
    Costs.bind (costs_allocInput _ _) (fun _ _ => Costs.bind (costs_allocInput _ _) (fun _ _ =>
    Costs.bind (costs_allocInput _ _) (fun _ _ => Costs.bind (Costs.liftM _) (fun _ _ =>
    Costs.bind (costs_allocWitness _ _) (fun r0 h0 => Costs.bind (Costs.liftM _) (fun _ _ =>
    Costs.bind (costs_allocWitness _ _) (fun r1 h1 => Costs.bind (Costs.liftM _) (fun _ _ =>
    Costs.bind (costs_allocWitness _ _) (fun r2 h2 => Costs.bind (Costs.liftM _) (fun _ _ =>
    Costs.bind (costs_allocInput _ _) (fun _ _ => Costs.pure _ _ ?_)))))))))))))) ?_
  · subst hP; exact ⟨h0.1, h1.1, h2.1⟩
  · subst hP
    rw [show allocCost secq256k1 = ⟨93, 343, []⟩ by decide]
    rfl

theorem costs_foldEquation (dbg : Bool) (P : SimFr.Params) (x y s : SimVar F) (e : EqVars F) (hP : P = secq256k1) :
    Costs (foldEquation dbg P x y s e) ⟨524, 1233, []⟩ Any := by
  unfold foldEquation
  refine Costs.cost (Costs.bind (costs_mul _ _ _) (fun _ _ => Costs.bind (costs_mul _ _ _) (fun _ _ =>
    Costs.bind (costs_addMul _ _ _) (fun _ _ => Costs.bind (costs_mul _ _ _) (fun _ _ =>
    Costs.bind (costs_addMul _ _ _) (fun _ _ => Costs.bind (costs_mul _ _ _) (fun _ _ =>
    Costs.bind (costs_addMul _ _ _) (fun _ _ => Costs.bind (costs_mul _ _ _) (fun _ _ =>
    Costs.bind (costs_addMul _ _ _) (fun _ _ => Costs.bind (costs_sub _ _ _) (fun _ _ =>
    Costs.bind (costs_subMul _ _ _) (fun _ _ => costs_enforceZero _ _ _)))))))))))) ?_
  subst hP
  decide

/-- the cost of the folding circuit over secq256k1, for a modulus with `c` gates of comparison and `h` gates for each hash -/
def foldCost (c h : Nat) : Cost := ⟨2166 + c + 3 * h, 4364 + c + 3 * h, (List.range 37).map (2129 + c + 3 * h + ·)⟩

theorem costs_folding (p : Rescue.Params F) (dbg : Bool) (P : SimFr.Params) (modulus : Bytes) (wit : FoldWitness P F)
    (pk : PK Nat) (sk : SK Nat) (hm : modulus.length = 32) (hP : P = secq256k1) :
    Costs (foldingCircuit p dbg P modulus wit pk sk)
      (foldCost (cmpCost (modulus.flatMap byteBits)) (4 + 12 * p.numRounds)) Any := by
  unfold foldingCircuit
  refine Costs.cost (Costs.bind (costs_foldKeys P modulus wit pk sk hm hP) (fun k hk => Costs.bind (costs_foldAlloc P wit hP)
    (fun e he => Costs.bind (costs_foldEquation _ _ _ _ _ _ hP) (fun _ _ => Costs.bind (costs_stateComm p P _ _ _ ?_ ?_) (fun _ _ =>
    Costs.bind (costs_preparePi _) (fun _ _ => Costs.bind (costs_publicLimbs _ _) (fun _ _ => Costs.bind (costs_publicLimbs _ _)
    (fun _ _ => Costs.bind (costs_publicLimbs _ _) (fun _ _ => Costs.bind (costs_publicLimbs _ _) (fun _ _ =>
    Costs.bind (costs_publicLimbs _ _) (fun _ _ => Costs.bind (costs_publicLimbs _ _) (fun _ _ => pureAny _)))))))))))) ?_
  · subst hP; rfl
  · simp [hk, he]
  · subst hP
    generalize cmpCost (modulus.flatMap byteBits) = c
    generalize 4 + 12 * p.numRounds = h
    simp only [Cost.seq, Cost.zero, foldCost, secq256k1, List.range, List.range.loop, List.map_cons, List.map_nil,
      List.append_nil, List.nil_append, List.cons_append, Cost.mk.injEq]
    refine ⟨by omega, by omega, ?_⟩
    simp only [List.cons.injEq, and_true]
    omega

/-! ### Spending -/

theorem costs_commitInCs (p : Rescue.Params F) (b a t : Nat) (pk : PK Nat) :
    Costs (commitInCs p b a t pk) ⟨2 * (4 + 12 * p.numRounds), 2 * (4 + 12 * p.numRounds), []⟩ Any :=
  Costs.cost (Costs.bind (costs_rescueCircuit p _) (fun _ _ => Costs.bind (costs_rescueCircuit p _) (fun _ _ => pureAny _)))
    (by simp [Cost.seq, Cost.zero]; omega)

theorem costs_nullifyInCs (p : Rescue.Params F) (sk : SK Nat) (a t : Nat) (pk : PK Nat) :
    Costs (nullifyInCs p sk a t pk) ⟨2 * (4 + 12 * p.numRounds), 2 * (4 + 12 * p.numRounds), []⟩ Any :=
  Costs.cost (Costs.bind (costs_rescueCircuit p _) (fun _ _ => Costs.bind (costs_rescueCircuit p _) (fun _ _ => pureAny _)))
    (by simp [Cost.seq, Cost.zero]; omega)

theorem costs_nodeVars (n : MTNode F) : Costs (nodeVars n) ⟨0, 4, []⟩ Any :=
  Costs.cost (Costs.bind (costs_newVar _) (fun _ _ => Costs.bind (costs_newVar _) (fun _ _ => Costs.bind (costs_newVar _)
    (fun _ _ => Costs.bind (costs_newVar _) (fun _ _ => pureAny _))))) rfl

theorem costs_nodeBits (v : NodeVars) : Costs (nodeBits v : Build F Unit) ⟨4, 1, []⟩ Any :=
  Costs.cost (Costs.bind (costs_insertMulGate ..) (fun _ _ => Costs.bind (costs_insertMulGate ..) (fun _ _ => Costs.bind
    (costs_addV ..) (fun _ _ => costs_insertMulGate ..)))) rfl

theorem costs_addMerklePath (path : List (MTNode F)) : Costs (addMerklePath path) ⟨4 * path.length, 5 * path.length, []⟩
    (fun vs => vs.length = path.length) := by
  unfold addMerklePath
  refine Costs.cost (Costs.bind (mapM_len _ (fun _ => ⟨0, 4, []⟩) _ (fun _ _ => costs_nodeVars _)) (fun vs hv => Costs.bind
    (Costs.cost (foldlM_any _ (fun _ => ⟨4, 1, []⟩) _ _ (fun _ _ _ => costs_nodeBits _))
      (show _ = (⟨path.length * 4, path.length * 1, []⟩ : Cost) by rw [Cost.sum_map_const, hv]))
    (fun _ _ => Costs.pure _ _ hv))) ?_
  rw [Cost.sum_map_const]
  simp [Cost.seq, Cost.zero]
  omega

theorem costs_merkleRoot (p : Rescue.Params F) (uid com : Nat) (path : List NodeVars) :
    Costs (merkleRootVars p uid com path) ⟨(4 + 12 * p.numRounds) + path.length * (4 + (4 + 12 * p.numRounds)),
      (4 + 12 * p.numRounds) + path.length * (4 + (4 + 12 * p.numRounds)), []⟩ Any := by
  unfold merkleRootVars
  refine Costs.cost (Costs.bind (costs_rescueCircuit p _) (fun _ _ => foldlM_any _
    (fun _ => ⟨4 + (4 + 12 * p.numRounds), 4 + (4 + 12 * p.numRounds), []⟩) _ _ (fun _ v _ => Costs.cost (Costs.bind
      (show Costs (sortNode _ v) ⟨4, 4, []⟩ Any from
        Costs.cost (Costs.bind (costs_selectV ..) (fun _ _ => Costs.bind (costs_selectV ..) (fun _ _ => Costs.bind (costs_addV ..)
          (fun _ _ => Costs.bind (costs_linearCombine ..) (fun _ _ => pureAny _))))) rfl)
      (fun _ _ => Costs.bind (costs_rescueCircuit p _) (fun _ _ => pureAny _))) ?_))) ?_
  · simp [Cost.seq, Cost.zero]
  · rw [Cost.sum_map_const]
    simp [Cost.seq]

theorem costs_payerVars (s : Payer F) : Costs (payerVars s) ⟨4 * s.path.length, 4 + 5 * s.path.length, []⟩
    (fun v => v.path.length = s.path.length) :=
  Costs.cost (Costs.bind (costs_newVar _) (fun _ _ => Costs.bind (costs_newVar _) (fun _ _ => Costs.bind (costs_newVar _)
    (fun _ _ => Costs.bind (costs_addMerklePath _) (fun _ h => Costs.bind (costs_newVar _) (fun _ _ => Costs.pure _ _ h))))))
    (by simp [Cost.seq, Cost.zero]; omega)

theorem costs_pkVars (k : PK F) : Costs (pkVars k) ⟨0, 3, []⟩ Any :=
  Costs.cost (Costs.bind (costs_newVar _) (fun _ _ => Costs.bind (costs_newVar _) (fun _ _ => Costs.bind (costs_newVar _)
    (fun _ _ => pureAny _)))) rfl

theorem costs_payeeVars (s : Payee F) : Costs (payeeVars s) ⟨0, 6, []⟩ Any :=
  Costs.cost (Costs.bind (costs_newVar _) (fun _ _ => Costs.bind (costs_newVar _) (fun _ _ => Costs.bind (costs_newVar _)
    (fun _ _ => Costs.bind (costs_pkVars _) (fun _ _ => pureAny _))))) rfl

/-! ### Transfers -/

theorem costs_payerStep (p : Rescue.Params F) (pk : PK Nat) (sk : SK Nat) (root : Option Nat) (v : PayerVars) :
    Costs (payerStep p pk sk root v)
      ⟨5 * (4 + 12 * p.numRounds) + v.path.length * (4 + (4 + 12 * p.numRounds)) + 24 + (if root.isSome then 1 else 0),
       5 * (4 + 12 * p.numRounds) + v.path.length * (4 + (4 + 12 * p.numRounds)) + 85,
       [5 * (4 + 12 * p.numRounds) + v.path.length * (4 + (4 + 12 * p.numRounds)) + 23 + (if root.isSome then 1 else 0)]⟩
      (fun r => r.isSome = true) := by
  unfold payerStep
  refine Costs.cost (Costs.bind (costs_commitInCs ..) (fun _ _ => Costs.bind (costs_linearCombine ..) (fun _ _ =>
    Costs.bind (costs_nullifyInCs ..) (fun _ _ => Costs.bind (costs_merkleRoot ..) (fun _ _ => Costs.bind (costs_rangeCheck ..)
    (fun _ _ => Costs.bind (show Costs (checkRoot root _) ⟨if root.isSome then 1 else 0, 0, []⟩ (fun r => r.isSome = true) from ?_)
    (fun r hr => Costs.bind (costs_preparePi _) (fun _ _ => Costs.pure _ _ hr)))))))) ?_
  · cases root with
    | none => exact Costs.pure _ _ rfl
    | some x => exact Costs.cost (Costs.bind (costs_equalV ..) (fun _ _ => Costs.pure _ _ rfl)) rfl
  · simp only [Cost.seq, Cost.zero, rangeCost, Cost.mk.injEq, List.map_cons, List.map_nil, List.nil_append, List.append_nil]
    refine ⟨by omega, by omega, ?_⟩
    simp only [List.cons.injEq, and_true]
    omega

/-- the cost of `n` payers with paths of length `d`, when a hash costs `h` -/
def payersCost (h d n : Nat) : Cost :=
  ⟨n * (5 * h + d * (4 + h) + 25) - 1, n * (5 * h + d * (4 + h) + 85),
    (List.range n).map (fun i => i * (5 * h + d * (4 + h) + 25) + (5 * h + d * (4 + h) + 23))⟩

theorem costs_payers (p : Rescue.Params F) (pk : PK Nat) (sk : SK Nat) (d : Nat) (pvs : List PayerVars) (hne : pvs ≠ [])
    (hd : ∀ v ∈ pvs, v.path.length = d) : Costs (pvs.foldlM (payerStep p pk sk) none)
      (payersCost (4 + 12 * p.numRounds) d pvs.length) Any := by
  cases pvs with
  | nil => exact absurd rfl hne
  | cons v rest =>
    rw [List.foldlM_cons]
    have hv : v.path.length = d := hd v (by simp)
    have h1 := costs_payerStep p pk sk none v
    have h2 : ∀ r : Option Nat, r.isSome = true → Costs (rest.foldlM (payerStep p pk sk) r)
        (.sum (rest.map (fun _ => ⟨5 * (4 + 12 * p.numRounds) + d * (4 + (4 + 12 * p.numRounds)) + 25,
          5 * (4 + 12 * p.numRounds) + d * (4 + (4 + 12 * p.numRounds)) + 85,
          [5 * (4 + 12 * p.numRounds) + d * (4 + (4 + 12 * p.numRounds)) + 24]⟩))) (fun r => r.isSome = true) := by
      intro r hr
      refine Costs.foldlM (F := F) (payerStep p pk sk) (fun _ => ⟨5 * (4 + 12 * p.numRounds) + d * (4 + (4 + 12 * p.numRounds)) + 25,
          5 * (4 + 12 * p.numRounds) + d * (4 + (4 + 12 * p.numRounds)) + 85,
          [5 * (4 + 12 * p.numRounds) + d * (4 + (4 + 12 * p.numRounds)) + 24]⟩) (fun r : Option Nat => r.isSome = true) rest r hr
        (fun b hb a ha => ?_)
      have := costs_payerStep p pk sk b a
      rw [hd a (by simp [ha]), hb] at this
      exact this
    rw [hv] at h1
    refine Costs.cost (Costs.bind h1 (fun r hr => (h2 r hr).any)) ?_
    rw [Cost.sum_map_pub]
    generalize 4 + 12 * p.numRounds = h
    generalize hA : 5 * h + d * (4 + h) = A
    simp only [payersCost, Cost.seq, Cost.mk.injEq, hA, List.length_cons, Option.isSome_none]
    refine ⟨?_, by ring, ?_⟩
    · rw [Nat.succ_mul]
      simp
      omega
    · rw [List.range_succ_eq_map]
      simp only [List.map_cons, List.map_map, List.cons_append, List.nil_append]
      refine congrArg₂ _ (by simp) (List.map_congr_left (fun i _ => ?_))
      simp only [Function.comp, Nat.succ_mul]
      simp
      omega

theorem costs_payeeStep (p : Rescue.Params F) (v : PayeeVars) : Costs (payeeStep p v)
    ⟨2 * (4 + 12 * p.numRounds) + 23, 2 * (4 + 12 * p.numRounds) + 84, [2 * (4 + 12 * p.numRounds) + 22]⟩ Any :=
  Costs.cost (Costs.bind (costs_commitInCs ..) (fun _ _ => Costs.bind (costs_rangeCheck ..) (fun _ _ => costs_preparePi _)))
    (by simp [Cost.seq, rangeCost])

theorem costs_matchSelect (a b v : Nat) : Costs (matchSelect a b v : Build F Nat) ⟨5, 5, []⟩ Any :=
  Costs.cost (Costs.bind (costs_isEqual ..) (fun _ _ => costs_mulV ..)) rfl

theorem costs_typeSums (l : List (Nat × Nat)) : Costs (typeSums l : Build F (List (Nat × Nat)))
    ⟨6 * l.length * l.length, 6 * l.length * l.length, []⟩ (fun s => s.length = l.length) := by
  unfold typeSums
  refine Costs.cost (mapM_len _ (fun _ => ⟨6 * l.length, 6 * l.length, []⟩) _ (fun i _ => Costs.cost (Costs.bind
    (show Costs (sumOf l i.1) ⟨6 * l.length, 6 * l.length, []⟩ Any from ?_) (fun _ _ => pureAny _)) (Cost.seq_zero _))) ?_
  · unfold sumOf
    refine Costs.cost (foldlM_any _ (fun _ => ⟨6, 6, []⟩) _ _ (fun _ _ _ => Costs.cost (Costs.bind (costs_matchSelect ..)
      (fun _ _ => costs_addV ..)) rfl)) ?_
    rw [Cost.sum_map_const, Nat.mul_comm]
  · rw [Cost.sum_map_const]
    simp [Nat.mul_comm]

theorem costs_mixPair (it is : Nat) (fe : Nat × Nat) (f nm : Nat) (o : Nat × Nat) :
    Costs (mixPair it is fe f nm o : Build F Nat) ⟨11, 9, []⟩ Any :=
  Costs.cost (Costs.bind (costs_isEqualOrNotEqual ..) (fun _ _ => Costs.bind (costs_mulV ..) (fun _ _ => Costs.bind (costs_subV ..)
    (fun _ _ => Costs.bind (costs_mulV ..) (fun _ _ => Costs.bind (costs_insertMulGate ..) (fun _ _ => Costs.bind (costs_mulV ..)
    (fun _ _ => Costs.bind (costs_subV ..) (fun _ _ => Costs.bind (costs_insertMulGate ..) (fun _ _ => pureAny _))))))))) rfl

theorem costs_mixInput (outs : List (Nat × Nat)) (fv f flag : Nat) (i : Nat × Nat) :
    Costs (mixInput outs fv f flag i : Build F Nat) ⟨9 + 11 * outs.length, 7 + 9 * outs.length, []⟩ Any := by
  unfold mixInput
  refine Costs.cost (Costs.bind (costs_isEqualOrNotEqual ..) (fun _ _ => Costs.bind (costs_mulV ..) (fun _ _ => Costs.bind
    (foldlM_any _ (fun _ => ⟨11, 9, []⟩) _ _ (fun _ _ _ => costs_mixPair ..)) (fun _ _ => Costs.bind (costs_insertMulGate ..)
    (fun _ _ => Costs.bind (costs_subV ..) (fun _ _ => Costs.bind (costs_mulV ..) (fun _ _ => Costs.bind
    (costs_insertMulGate ..) (fun _ _ => pureAny _)))))))) ?_
  rw [Cost.sum_map_const]
  simp [Cost.seq, Cost.zero]
  omega

theorem costs_mixOutput (ins : List (Nat × Nat)) (o : Nat × Nat) :
    Costs (mixOutput ins o : Build F Unit) ⟨2 * ins.length + 1, 2 * ins.length, []⟩ Any := by
  unfold mixOutput
  refine Costs.cost (Costs.bind (foldlM_any _ (fun _ => ⟨2, 2, []⟩) _ _ (fun _ _ _ => Costs.cost (Costs.bind (costs_subV ..)
    (fun _ _ => costs_mulV ..)) rfl)) (fun _ _ => costs_insertConstantGate ..)) ?_
  rw [Cost.sum_map_const]
  simp [Cost.seq]
  omega

theorem costs_assetMixing (ins outs : List (Nat × Nat)) (ft : F) (f : Nat) : Costs (assetMixing ins outs ft f)
    ⟨6 * ins.length * ins.length + 6 * outs.length * outs.length + 13 * ins.length * outs.length + 9 * ins.length + outs.length + 2,
     6 * ins.length * ins.length + 6 * outs.length * outs.length + 11 * ins.length * outs.length + 7 * ins.length + 1, []⟩ Any := by
  unfold assetMixing
  refine Costs.cost (Costs.bind (costs_typeSums _) (fun a ha => Costs.bind (costs_typeSums _) (fun b hb => Costs.bind
    (costs_newVar _) (fun _ _ => Costs.bind (costs_insertConstantGate ..) (fun _ _ => Costs.bind
      (Costs.cost (foldlM_any _ (fun _ => ⟨9 + 11 * outs.length, 7 + 9 * outs.length, []⟩) _ _
        (fun _ _ _ => Costs.cost (costs_mixInput ..) (by rw [hb])))
        (show _ = (⟨ins.length * (9 + 11 * outs.length), ins.length * (7 + 9 * outs.length), []⟩ : Cost)
          by rw [Cost.sum_map_const, ha]))
    (fun _ _ => Costs.bind (costs_insertConstantGate ..) (fun _ _ =>
      foldlM_any _ (fun _ => ⟨2 * ins.length + 1, 2 * ins.length, []⟩) _ _ (fun _ _ _ => costs_mixOutput ..)))))))) ?_
  rw [Cost.sum_map_const]
  simp only [Cost.seq, Cost.mk.injEq, List.map_nil, List.append_nil, and_true]
  constructor <;> ring

/-- every successful run of `m` adds `c` and then pads the gates to a power of two -/
structure Ends {α : Type} (m : Build F α) (c : Cost) : Prop where
  run : ∀ cs a cs', m cs = some (a, cs') → cs'.gates.length = nextPow2 (cs.gates.length + c.gates) ∧
    cs'.numVars = cs.numVars + c.vars ∧ cs'.pubCons = cs.pubCons ++ c.pubs.map (cs.gates.length + ·)

theorem Ends.pad {α : Type} (a : α) : Ends (do Plonk.pad; pure a : Build F α) .zero := by
  constructor
  intro cs b cs' hm
  have hm : Option.bind ((Plonk.pad : Build F Unit) cs) (fun x => (pure a : Build F α) x.2) = some (b, cs') := hm
  obtain ⟨⟨x, cs1⟩, e1, e2⟩ := Option.bind_eq_some_iff.mp hm
  simp only [Plonk.pad, Option.some.injEq, Prod.mk.injEq] at e1
  obtain ⟨-, rfl⟩ := e1
  simp only [Pure.pure, StateT.pure, Option.some.injEq, Prod.mk.injEq] at e2
  obtain ⟨-, rfl⟩ := e2
  refine ⟨?_, by simp [Cost.zero], by simp [Cost.zero]⟩
  have : cs.gates.length ≤ nextPow2 cs.gates.length := Nat.le_pow_clog (by norm_num) _
  simp [Cost.zero]
  omega

theorem Ends.bind {α β : Type} {m : Build F α} {f : α → Build F β} {c d : Cost} {Q : α → Prop}
    (h : Costs m c Q) (hf : ∀ a, Q a → Ends (f a) d) : Ends (m >>= f) (c.seq d) := by
  constructor
  intro cs b cs' hm
  obtain ⟨⟨a, cs1⟩, e1, e2⟩ := Option.bind_eq_some_iff.mp hm
  obtain ⟨h1, h2, h3, h4⟩ := h.run cs a cs1 e1
  obtain ⟨g1, g2, g3⟩ := (hf a h4).run cs1 b cs' e2
  refine ⟨?_, ?_, ?_⟩
  · rw [g1, h1]; simp [Cost.seq, Nat.add_assoc]
  · rw [g2, h2]; simp [Cost.seq, Nat.add_assoc]
  · rw [g3, h3, h1]; simp [Cost.seq, Nat.add_assoc, Function.comp_def]

theorem Ends.cost {α : Type} {m : Build F α} {c c' : Cost} (h : Ends m c) (e : c = c') : Ends m c' := e ▸ h

theorem forall₂_right {α β : Type} {P : β → Prop} {l : List α} {l' : List β} (h : List.Forall₂ (fun _ b => P b) l l') :
    ∀ b ∈ l', P b := by
  induction h with
  | nil => simp
  | cons h _ ih => simpa using ⟨h, ih⟩

/-- the parts of the transfer circuit in order -/
def transferCost (c h d n m : Nat) : Cost :=
  .sum [⟨n * (4 * d), n * (4 + 5 * d), []⟩, ⟨0, m * 6, []⟩, ⟨0, 5, []⟩, payersCost h d n, ⟨1, 0, [0]⟩,
    ⟨m * (2 * h + 23), m * (2 * h + 84), (List.range m).map (fun i => i * (2 * h + 23) + (2 * h + 22))⟩, ⟨0, 1, []⟩, ⟨1, 0, [0]⟩,
    foldCost c h, ⟨6 * n * n + 6 * m * m + 13 * n * m + 9 * n + m + 2, 6 * n * n + 6 * m * m + 11 * n * m + 7 * n + 1, []⟩]

theorem ends_transfer (p : Rescue.Params F) (dbg : Bool) (modulus : Bytes) (wit : FoldWitness secq256k1 F)
    (hm : modulus.length = 32) (d : Nat) (payers : List (Payer F)) (payees : List (Payee F)) (pk : PK F) (sk : SK F) (fee ft : F)
    (hd : ∀ s ∈ payers, s.path.length = d) :
    Ends (buildMultiXfr p (foldingCircuit p dbg secq256k1 modulus wit) payers payees pk sk fee ft)
      (transferCost (cmpCost (modulus.flatMap byteBits)) (4 + 12 * p.numRounds) d payers.length payees.length) := by
  unfold buildMultiXfr
  split
  · constructor
    intro cs a cs' h
    exact absurd h (by simp [failure, StateT.failure])
  rename_i hne
  have hne1 : payers ≠ [] := fun h => hne (Or.inl h)
  refine Ends.cost (Ends.bind (Costs.mapM _ (fun _ => ⟨4 * d, 4 + 5 * d, []⟩) (fun s v => v.path.length = d) _ (fun s hs =>
    Costs.cons (costs_payerVars s) (by rw [hd s hs]) (fun v hv => hv.trans (hd s hs)))) (fun pvs hp => Ends.bind
    (mapM_len _ (fun _ => ⟨0, 6, []⟩) _ (fun s _ => costs_payeeVars s)) (fun qvs hq => Ends.bind (costs_pkVars _) (fun _ _ =>
    Ends.bind (costs_newVar _) (fun _ _ => Ends.bind (costs_newVar _) (fun _ _ => Ends.bind (Costs.cost
      (costs_payers p _ _ d pvs ?_ ?_) (show _ = payersCost (4 + 12 * p.numRounds) d payers.length from ?_)) (fun _ _ => Ends.bind (Costs.liftM _) (fun _ _ =>
    Ends.bind (costs_preparePi _) (fun _ _ => Ends.bind (Costs.cost (foldlM_any _ (fun _ => ⟨2 * (4 + 12 * p.numRounds) + 23,
      2 * (4 + 12 * p.numRounds) + 84, [2 * (4 + 12 * p.numRounds) + 22]⟩) _ _ (fun _ v _ => costs_payeeStep p v))
      (show _ = (⟨payees.length * (2 * (4 + 12 * p.numRounds) + 23), payees.length * (2 * (4 + 12 * p.numRounds) + 84),
        (List.range payees.length).map (fun i => i * (2 * (4 + 12 * p.numRounds) + 23) + (2 * (4 + 12 * p.numRounds) + 22))⟩ : Cost)
        by rw [Cost.sum_map_pub, hq])) (fun _ _ =>
    Ends.bind (costs_newVar _) (fun _ _ => Ends.bind (costs_preparePi _) (fun _ _ => Ends.bind
      (costs_folding p dbg secq256k1 modulus wit _ _ hm rfl) (fun _ _ => Ends.bind (Costs.cost (costs_assetMixing _ _ _ _)
      (show _ = (⟨6 * payers.length * payers.length + 6 * payees.length * payees.length + 13 * payers.length * payees.length
        + 9 * payers.length + payees.length + 2, 6 * payers.length * payers.length + 6 * payees.length * payees.length
        + 11 * payers.length * payees.length + 7 * payers.length + 1, []⟩ : Cost)
        by rw [List.length_map, List.length_map, ← hp.length_eq, hq])) (fun _ _ => Ends.pad _)))))))))))))) ?_
  · intro e
    subst e
    cases hp
    exact hne1 rfl
  · intro v hv
    exact forall₂_right (P := fun v : PayerVars => v.path.length = d) hp v hv
  · rw [← hp.length_eq]
  · rw [Cost.sum_map_const, Cost.sum_map_const]
    simp only [transferCost, Cost.sum_cons, Cost.sum_nil, Cost.zero_seq, Cost.seq_zero]
    rw [show (⟨0, 5, []⟩ : Cost) = Cost.seq ⟨0, 3, []⟩ (Cost.seq ⟨0, 1, []⟩ ⟨0, 1, []⟩) from rfl]
    simp only [Cost.seq_assoc, Nat.mul_zero]

/-! ### Conversions -/

theorem ends_arToAbar (p : Rescue.Params F) (t : Payee F) :
    Ends (buildArToAbar p t) ⟨2 * (4 + 12 * p.numRounds) + 3, 2 * (4 + 12 * p.numRounds) + 6,
      [0, 1, 2 * (4 + 12 * p.numRounds) + 2]⟩ := by
  unfold buildArToAbar
  refine Ends.cost (Ends.bind (costs_newVar _) (fun _ _ => Ends.bind (costs_preparePi _) (fun _ _ => Ends.bind (costs_newVar _)
    (fun _ _ => Ends.bind (costs_preparePi _) (fun _ _ => Ends.bind (costs_newVar _) (fun _ _ => Ends.bind (costs_pkVars _)
    (fun _ _ => Ends.bind (costs_commitInCs ..) (fun _ _ => Ends.bind (costs_preparePi _) (fun _ _ => Ends.pad _))))))))) ?_
  generalize 4 + 12 * p.numRounds = h
  simp [Cost.seq, Cost.zero]
  omega

theorem costs_spendOne (p : Rescue.Params F) (s : Payer F) (pk : PK F) (sk : SK F) : Costs (spendOne p s pk sk)
    ⟨5 * (4 + 12 * p.numRounds) + s.path.length * (8 + (4 + 12 * p.numRounds)) + 1,
     5 * (4 + 12 * p.numRounds) + s.path.length * (9 + (4 + 12 * p.numRounds)) + 10, []⟩ Any := by
  unfold spendOne
  refine Costs.cost (Costs.bind (costs_payerVars s) (fun v hv => Costs.bind (costs_pkVars _) (fun _ _ => Costs.bind (costs_newVar _)
    (fun _ _ => Costs.bind (costs_newVar _) (fun _ _ => Costs.bind (costs_commitInCs ..) (fun _ _ => Costs.bind
    (costs_linearCombine ..) (fun _ _ => Costs.bind (costs_nullifyInCs ..) (fun _ _ => Costs.bind
    (Costs.cost (costs_merkleRoot ..) (by rw [hv])) (fun _ _ => pureAny _))))))))) ?_
  generalize 4 + 12 * p.numRounds = h
  simp only [Cost.seq, Cost.zero, List.map_nil, List.append_nil, Cost.mk.injEq, and_true]
  constructor <;> ring

theorem ends_abarToAr (p : Rescue.Params F) (dbg : Bool) (modulus : Bytes) (wit : FoldWitness secq256k1 F)
    (hm : modulus.length = 32) (s : Payer F) (pk : PK F) (sk : SK F) :
    Ends (buildAbarToAr p (foldingCircuit p dbg secq256k1 modulus wit) s pk sk)
      (.sum [⟨5 * (4 + 12 * p.numRounds) + s.path.length * (8 + (4 + 12 * p.numRounds)) + 1,
        5 * (4 + 12 * p.numRounds) + s.path.length * (9 + (4 + 12 * p.numRounds)) + 10, []⟩, ⟨4, 0, [0, 1, 2, 3]⟩,
        foldCost (cmpCost (modulus.flatMap byteBits)) (4 + 12 * p.numRounds)]) := by
  unfold buildAbarToAr
  refine Ends.cost (Ends.bind (costs_spendOne ..) (fun _ _ => Ends.bind (costs_preparePi _) (fun _ _ => Ends.bind (costs_preparePi _)
    (fun _ _ => Ends.bind (costs_preparePi _) (fun _ _ => Ends.bind (costs_preparePi _) (fun _ _ => Ends.bind
    (costs_folding p dbg secq256k1 modulus wit _ _ hm rfl) (fun _ _ => Ends.pad _))))))) ?_
  simp only [Cost.sum_cons, Cost.sum_nil, Cost.seq_zero]
  rw [show (⟨4, 0, [0, 1, 2, 3]⟩ : Cost) = Cost.seq ⟨1, 0, [0]⟩ (Cost.seq ⟨1, 0, [0]⟩ (Cost.seq ⟨1, 0, [0]⟩ ⟨1, 0, [0]⟩)) from rfl]
  simp only [Cost.seq_assoc]

theorem costs_inspAlloc (P : SimFr.Params) (wit : InspWitness P F) (hP : P = ristretto) : Costs (inspAlloc P wit)
    ⟨285, 1101, []⟩ (fun v => v.x.var.length = 6 ∧ v.y.var.length = 6 ∧ v.a.var.length = 6 ∧ v.b.var.length = 6) := by
  unfold inspAlloc
  refine Costs.cost (Costs.bind (Costs.liftM _) (fun _ _ => Costs.bind (Costs.liftM _) (fun _ _ => Costs.bind (Costs.liftM _)
    (fun _ _ => Costs.bind (costs_allocBounded ..) (fun x hx => Costs.bind (costs_allocBounded ..) (fun y hy =>
    Costs.bind (costs_allocWitness ..) (fun a ha => Costs.bind (costs_allocWitness ..) (fun b hb =>
    Costs.bind (costs_newVar _) (fun _ _ => Costs.bind (costs_newVar _) (fun _ _ =>
    Costs.bind (costs_allocInput _ _) (fun _ _ => Costs.bind (costs_allocInput _ _) (fun _ _ =>
    Costs.bind (costs_allocInput _ _) (fun _ _ => Costs.bind (costs_allocInput _ _) (fun _ _ => Costs.pure _ _ ?_)))))))))))))) ?_
  · subst hP; exact ⟨hx, hy, ha.1, hb.1⟩
  · subst hP; decide

theorem costs_inspState (p : Rescue.Params F) (P : SimFr.Params) (v : InspVars F)
    (hv : v.x.var.length = 6 ∧ v.y.var.length = 6 ∧ v.a.var.length = 6 ∧ v.b.var.length = 6) : Costs (inspState p P v)
      ⟨2 * (4 + 12 * p.numRounds) + 10, 2 * (4 + 12 * p.numRounds) + 9, []⟩ Any := by
  unfold inspState
  refine Costs.cost (Costs.bind (costs_packWords P _ _) (fun ws hw => Costs.bind (Costs.liftM _) (fun _ _ =>
    Costs.bind (Costs.liftM _) (fun _ _ => Costs.bind (Costs.liftM _) (fun _ _ => Costs.bind (Costs.liftM _) (fun _ _ =>
    Costs.bind (costs_rescueCircuit p _) (fun _ _ => Costs.bind (Costs.liftM _) (fun _ _ =>
    Costs.bind (costs_rescueCircuit p _) (fun _ _ => costs_equalV ..))))))))) ?_
  have : (v.x.var ++ v.y.var ++ v.a.var ++ v.b.var).length = 24 := by simp [hv]
  rw [this, show packCost 5 24 = 9 by decide]
  simp [Cost.seq, Cost.zero]
  omega

theorem costs_inspEquation (dbg : Bool) (P : SimFr.Params) (v : InspVars F) (hP : P = ristretto) :
    Costs (inspEquation dbg P v) ⟨420, 1116, []⟩ Any := by
  unfold inspEquation
  refine Costs.cost (Costs.bind (costs_mul _ _ _) (fun _ _ => Costs.bind (costs_mul _ _ _) (fun _ _ =>
    Costs.bind (costs_mul _ _ _) (fun _ _ => Costs.bind (costs_addMul _ _ _) (fun _ _ =>
    Costs.bind (costs_addMul _ _ _) (fun _ _ => Costs.bind (costs_sub _ _ _) (fun _ _ =>
    Costs.bind (costs_subMul _ _ _) (fun _ _ => costs_enforceZero _ _ _)))))))) ?_
  subst hP
  decide

theorem costs_recombine (P : SimFr.Params) (vs : List Nat) : Costs (recombine P vs : Build F Nat) ⟨2, 2, []⟩ Any :=
  Costs.cost (Costs.bind (Costs.liftM _) (fun _ _ => Costs.bind (Costs.liftM _) (fun _ _ => Costs.bind (Costs.liftM _) (fun _ _ =>
    Costs.bind (Costs.liftM _) (fun _ _ => Costs.bind (costs_linearCombine ..) (fun _ _ => Costs.bind (Costs.liftM _) (fun _ _ =>
    Costs.bind (Costs.liftM _) (fun _ _ => costs_linearCombine ..)))))))) rfl

theorem costs_inspection (p : Rescue.Params F) (dbg : Bool) (wit : InspWitness ristretto F) (a t : Nat) :
    Costs (inspection p dbg ristretto wit a t) ⟨721 + 2 * (4 + 12 * p.numRounds), 2230 + 2 * (4 + 12 * p.numRounds), []⟩ Any := by
  unfold inspection
  refine Costs.cost (Costs.bind (costs_inspAlloc ristretto wit rfl) (fun v hv => Costs.bind (costs_inspState p _ v hv) (fun _ _ =>
    Costs.bind (costs_inspEquation _ _ _ rfl) (fun _ _ => Costs.bind
      (show Costs (inspValues ristretto v a t) ⟨6, 4, []⟩ Any from Costs.cost (Costs.bind (costs_recombine ..) (fun _ _ =>
        Costs.bind (costs_recombine ..) (fun _ _ => Costs.bind (costs_equalV ..) (fun _ _ => costs_equalV ..)))) rfl)
      (fun _ _ => pureAny _))))) ?_
  simp [Cost.seq, Cost.zero]
  omega

theorem costs_inspPublic (v : InspVars F) : Costs (inspPublic ristretto v) ⟨25, 0, List.range 25⟩ Any :=
  Costs.cost (Costs.bind (costs_preparePi _) (fun _ _ => Costs.bind (costs_publicLimbs _ _) (fun _ _ =>
    Costs.bind (costs_publicLimbs _ _) (fun _ _ => Costs.bind (costs_publicLimbs _ _) (fun _ _ => costs_publicLimbs _ _))))) rfl

theorem ends_barToAbar (p : Rescue.Params F) (dbg : Bool) (t : Payee F) (wit : InspWitness ristretto F) :
    Ends (buildBarToAbar p dbg ristretto t wit)
      (.sum [⟨721 + 4 * (4 + 12 * p.numRounds), 2236 + 4 * (4 + 12 * p.numRounds), []⟩, ⟨26, 0, List.range 26⟩]) := by
  unfold buildBarToAbar
  refine Ends.cost (Ends.bind (costs_newVar _) (fun _ _ => Ends.bind (costs_newVar _) (fun _ _ => Ends.bind (costs_newVar _)
    (fun _ _ => Ends.bind (costs_pkVars _) (fun _ _ => Ends.bind (costs_inspection ..) (fun _ _ => Ends.bind (costs_commitInCs ..)
    (fun _ _ => Ends.bind (costs_preparePi _) (fun _ _ => Ends.bind (costs_inspPublic _) (fun _ _ => Ends.pad _))))))))) ?_
  simp only [Cost.sum_cons, Cost.sum_nil, Cost.seq_zero]
  rw [show (⟨26, 0, List.range 26⟩ : Cost) = Cost.seq ⟨1, 0, [0]⟩ ⟨25, 0, List.range 25⟩ from rfl,
    show (⟨721 + 4 * (4 + 12 * p.numRounds), 2236 + 4 * (4 + 12 * p.numRounds), []⟩ : Cost) = Cost.seq ⟨0, 1, []⟩ (Cost.seq ⟨0, 1, []⟩
      (Cost.seq ⟨0, 1, []⟩ (Cost.seq ⟨0, 3, []⟩ (Cost.seq ⟨721 + 2 * (4 + 12 * p.numRounds), 2230 + 2 * (4 + 12 * p.numRounds), []⟩
        ⟨2 * (4 + 12 * p.numRounds), 2 * (4 + 12 * p.numRounds), []⟩)))) by simp [Cost.seq]; omega]
  simp only [Cost.seq_assoc]

theorem ends_abarToBar (p : Rescue.Params F) (dbg : Bool) (modulus : Bytes) (fw : FoldWitness secq256k1 F)
    (hm : modulus.length = 32) (s : Payer F) (pk : PK F) (sk : SK F) (wit : InspWitness ristretto F) :
    Ends (buildAbarToBar p (foldingCircuit p dbg secq256k1 modulus fw) dbg ristretto s pk sk wit)
      (.sum [⟨5 * (4 + 12 * p.numRounds) + s.path.length * (8 + (4 + 12 * p.numRounds)) + 1,
        5 * (4 + 12 * p.numRounds) + s.path.length * (9 + (4 + 12 * p.numRounds)) + 10, []⟩,
        ⟨721 + 2 * (4 + 12 * p.numRounds), 2230 + 2 * (4 + 12 * p.numRounds), []⟩, ⟨27, 0, List.range 27⟩,
        foldCost (cmpCost (modulus.flatMap byteBits)) (4 + 12 * p.numRounds)]) := by
  unfold buildAbarToBar
  refine Ends.cost (Ends.bind (costs_spendOne ..) (fun _ _ => Ends.bind (costs_inspection ..) (fun _ _ =>
    Ends.bind (costs_preparePi _) (fun _ _ => Ends.bind (costs_preparePi _) (fun _ _ => Ends.bind (costs_inspPublic _) (fun _ _ =>
    Ends.bind (costs_folding p dbg secq256k1 modulus fw _ _ hm rfl) (fun _ _ => Ends.pad _))))))) ?_
  simp only [Cost.sum_cons, Cost.sum_nil, Cost.seq_zero]
  rw [show (⟨27, 0, List.range 27⟩ : Cost) = Cost.seq ⟨1, 0, [0]⟩ (Cost.seq ⟨1, 0, [0]⟩ ⟨25, 0, List.range 25⟩) from rfl]
  simp only [Cost.seq_assoc]

end Verif.Anon
