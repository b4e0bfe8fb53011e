import Mathlib.Data.List.Forall2
import Verif.Xfr.Sound
import Verif.Bulletproofs.MixProps

/-!
Property C104: the supply of every asset in a ledger of ordinary records, over histories of accepted transfers of every kind.

The proof systems are given by extractors (knowledge soundness, idealised to functions): the range proof by `RangeExtractor`
of Sound.lean, the equality proof by openings of all commitments to one value, the mixing proof by openings of all
commitments, values of the allocated variables and challenges at which the constraints of crypto/src/bulletproofs/mix.rs, in
the model of Verif/Bulletproofs/Mix.lean, are met.
-/

namespace Verif.Xfr

open Spec
open Verif.Plonk (ScalarRepr)

/-! ### Specification -/

namespace Spec

/-- What a record holds: an amount, with the blinding of the recombined commitment `low + 2^32 high`, and a type, as a
scalar, with the blinding of its commitment. -/
structure Holding (S : Types) where
  amount : Nat
  blind : S.F
  ty : S.F
  tyBlind : S.F

section
variable {S : Types} [Field S.F] [AddCommGroup S.G] [Module S.F S.G]

/-- the amount field holds `h.amount`: a public one says so, the two commitments of a hidden one recombine to a commitment
to it -/
def HoldsAmount (E : Ext S) (a : XfrAmount S) (h : Holding S) : Prop :=
  match a with
  | .plain v => h.amount = v.toNat ∧ h.blind = 0
  | .conf lo hi => ∃ l u, E.decompress lo = some l ∧ E.decompress hi = some u ∧
      l + (2 ^ 32 : S.F) • u = (h.amount : S.F) • E.B + h.blind • E.Bb

/-- the type field holds `h.ty` -/
def HoldsType (E : Ext S) (t : XfrAssetType S) (h : Holding S) : Prop :=
  match t with
  | .plain t => h.ty = E.asScalar t ∧ h.tyBlind = 0
  | .conf c => E.decompress c = some (h.ty • E.B + h.tyBlind • E.Bb)

/-- the record holds `h`, a 64-bit amount of a type -/
def Holds (E : Ext S) (r : BlindAssetRecord S) (h : Holding S) : Prop :=
  h.amount < 2 ^ 64 ∧ HoldsAmount E r.amount h ∧ HoldsType E r.assetType h

omit [Field S.F] in
/-- units of the type `t` in a list of holdings -/
def held [DecidableEq S.F] (t : S.F) (l : List (Holding S)) : Nat :=
  (l.map fun h => if h.ty = t then h.amount else 0).sum

end

/-- what is extracted from a mixing proof: for inputs and outputs ((amount, blinding), (type, blinding)), the values of the
allocated variables, and the challenges -/
structure MixWitness (S : Types) where
  ins : List ((S.F × S.F) × (S.F × S.F))
  outs : List ((S.F × S.F) × (S.F × S.F))
  allocs : List S.F
  chal : Nat → R1cs.Chal S.F

/-- extractors of the three proof systems -/
structure Extractors (S : Types) where
  range : S.RP → List S.CG → List (Nat × S.F)
  type : S.AP → List S.G → S.F × List S.F
  mix : S.MP → List (S.CG × S.CG) → List (S.CG × S.CG) → MixWitness S

section
variable {S : Types} [Field S.F] [AddCommGroup S.G] [Module S.F S.G] [DecidableEq S.F] [ScalarRepr S.F]

/-- a pair of compressed commitments opened -/
def MixOpens (E : Ext S) (c : S.CG × S.CG) (o : (S.F × S.F) × (S.F × S.F)) : Prop :=
  E.decompress c.1 = some (o.1.1 • E.B + o.1.2 • E.Bb) ∧ E.decompress c.2 = some (o.2.1 • E.B + o.2.2 • E.Bb)

/-- the committed pairs (amount, type) -/
def MixWitness.pairs (l : List ((S.F × S.F) × (S.F × S.F))) : List (R1cs.MixVar S.F) := l.map fun o => (o.1.1, o.2.1)

/-- The extractors do their work on accepted proofs. -/
structure Extractors.Sound (E : Ext S) (X : Extractors S) : Prop where
  range : RangeExtractor E X.range
  type : ∀ coms pf, E.batchAsset [(coms, pf)] = true →
    List.Forall₂ (fun c r => c = (X.type pf coms).1 • E.B + r • E.Bb) coms (X.type pf coms).2
  mix : ∀ ins outs pf, E.batchMix [(ins, outs, pf)] = true →
    List.Forall₂ (MixOpens E) ins (X.mix pf ins outs).ins ∧ List.Forall₂ (MixOpens E) outs (X.mix pf ins outs).outs ∧
    ∃ g st, R1cs.mix (MixWitness.pairs (X.mix pf ins outs).ins) none (MixWitness.pairs (X.mix pf ins outs).outs) none
        (R1cs.verifierWith (X.mix pf ins outs).allocs) = .ok (g, st) ∧
      R1cs.Satisfied st (X.mix pf ins outs).chal

end

end Spec

section
variable {S : Types} [Field S.F] [AddCommGroup S.G] [Module S.F S.G] [DecidableEq S.CG]
  [DecidableEq S.AT] [DecidableEq S.EK] [DecidableEq S.F] [ScalarRepr S.F] (E : Ext S)

/-! ### The holdings of outputs -/

namespace Spec

/-- what an output holds: public fields hold what they say, hidden ones what was extracted -/
def holdingOf (r : BlindAssetRecord S) (a : Nat × S.F) (t : S.F × S.F) : Holding S where
  amount := match r.amount with | .plain v => v.toNat | .conf _ _ => a.1
  blind := match r.amount with | .plain _ => 0 | .conf _ _ => a.2
  ty := match r.assetType with | .plain t => E.asScalar t | .conf _ => t.1
  tyBlind := match r.assetType with | .plain _ => 0 | .conf _ => t.2

/-- the holdings of a list of outputs from extracted amounts and types -/
def holdings : List (BlindAssetRecord S) → List (Nat × S.F) → List (S.F × S.F) → List (Holding S)
  | [], _, _ => []
  | r :: rs, as, ts => holdingOf E r (as.headD (0, 0)) (ts.headD (0, 0)) :: holdings rs as.tail ts.tail

/-- the commitments the range proof of a body is about -/
def rangeComs (b : XfrBody S) (p : RangeProof S) : List S.CG :=
  (E.extractValueCommitments b.inputs b.outputs p).getD []

/-- the commitments the equality proof of a body is about -/
def typeComs (b : XfrBody S) : List S.G :=
  ((b.inputs ++ b.outputs).mapM (fun r => E.typeCom r.assetType)).getD []

/-- the witness of the mixing proof of a body -/
def mixWitness (X : Extractors S) (b : XfrBody S) (p : S.MP) : MixWitness S :=
  X.mix p ((E.processBars b.inputs).getD []) ((E.processBars b.outputs).getD [])

/-- extracted amounts of the outputs -/
def outAmounts (X : Extractors S) (b : XfrBody S) : List (Nat × S.F) :=
  match b.amountProof with
  | .confAmount p | .confAll p _ =>
    (outputOpenings b.outputs (X.range p.proof (rangeComs E b p))).map fun o => (o.value, o.rlo + 2 ^ 32 * o.rhi)
  | .assetMix p => (mixWitness E X b p).outs.map fun o => (ScalarRepr.val o.1.1, o.1.2)
  | .confAsset _ | .noProof => []

/-- extracted types of the outputs -/
def outTypes (X : Extractors S) (b : XfrBody S) : List (S.F × S.F) :=
  match b.amountProof with
  | .confAsset q | .confAll _ q =>
    ((X.type q (typeComs E b)).2.drop b.inputs.length).map fun r => ((X.type q (typeComs E b)).1, r)
  | .assetMix p => (mixWitness E X b p).outs.map fun o => o.2
  | .confAmount _ | .noProof => []

/-- what the outputs of a body hold -/
def outHoldings (X : Extractors S) (b : XfrBody S) : List (Holding S) :=
  holdings E b.outputs (outAmounts E X b) (outTypes E X b)

/-- the extracted difference of inputs and outputs -/
def burnt (X : Extractors S) (b : XfrBody S) (p : RangeProof S) : Opening S :=
  diffOpening b.outputs (X.range p.proof (rangeComs E b p))

/-- Evidence that the transfer `b`, whose inputs hold `ins`, was made by someone who knows a relation between the two
Pedersen generators, or who was lucky with the challenges of a mixing proof.  Every case gives the numbers: they are computed
from the holdings and by the extractors. -/
inductive Broken [Fintype S.F] (X : Extractors S) (ins : List (Holding S)) (b : XfrBody S) : Prop
  /-- the amounts do not add up, so `B` and `B_blinding` are related -/
  | amounts (p : RangeProof S) (hp : b.amountProof = .confAmount p ∨ ∃ q, b.amountProof = .confAll p q)
      (a : S.F) (ha : a = ((ins.map (·.amount)).sum : Nat) -
        (((outHoldings E X b).map (·.amount)).sum + (burnt E X b p).value : Nat)) (hne : a ≠ 0)
      (hrel : a • E.B + ((ins.map (·.blind)).sum - ((outHoldings E X b).map (·.blind)).sum -
        blind [burnt E X b p]) • E.Bb = 0)
  /-- a type commitment has two openings -/
  | type (q : S.AP) (hq : b.amountProof = .confAsset q ∨ ∃ p, b.amountProof = .confAll p q)
      (e : Holding S × S.F) (he : e ∈ (ins ++ outHoldings E X b).zip (X.type q (typeComs E b)).2)
      (hne : e.1.ty ≠ (X.type q (typeComs E b)).1)
      (hrel : e.1.ty • E.B + e.1.tyBlind • E.Bb = (X.type q (typeComs E b)).1 • E.B + e.2 • E.Bb)
  /-- a recombined amount commitment has two openings -/
  | mixAmount (p : S.MP) (hp : b.amountProof = .assetMix p) (e : Holding S × ((S.F × S.F) × (S.F × S.F)))
      (he : e ∈ (ins ++ outHoldings E X b).zip ((mixWitness E X b p).ins ++ (mixWitness E X b p).outs))
      (hne : (e.1.amount : S.F) ≠ e.2.1.1)
      (hrel : (e.1.amount : S.F) • E.B + e.1.blind • E.Bb = e.2.1.1 • E.B + e.2.1.2 • E.Bb)
  /-- a type commitment has two openings -/
  | mixType (p : S.MP) (hp : b.amountProof = .assetMix p) (e : Holding S × ((S.F × S.F) × (S.F × S.F)))
      (he : e ∈ (ins ++ outHoldings E X b).zip ((mixWitness E X b p).ins ++ (mixWitness E X b p).outs))
      (hne : e.1.ty ≠ e.2.2.1)
      (hrel : e.1.ty • E.B + e.1.tyBlind • E.Bb = e.2.2.1 • E.B + e.2.2.2 • E.Bb)
  /-- the constraints of the mixing proof, with the values the prover chose, hold at few challenges only, and the challenge
  met one of these -/
  | lucky (p : S.MP) (hp : b.amountProof = .assetMix p) (g : Nat) (st : R1cs.St S.F)
      (hrun : R1cs.mix (MixWitness.pairs (mixWitness E X b p).ins) none (MixWitness.pairs (mixWitness E X b p).outs) none
        (R1cs.verifierWith (mixWitness E X b p).allocs) = .ok (g, st))
      (i : Nat) (bad : Finset (R1cs.Chal S.F))
      (hbad : bad.card ≤ (b.inputs.length ^ 2 + b.inputs.length) * Fintype.card S.F ^ 2)
      (hfew : ∀ ch, R1cs.Satisfied st ch → ch i ∈ bad) (hin : (mixWitness E X b p).chal i ∈ bad)

/-- the shapes of mixing transfers for which the constraints are sound (C26) -/
def MixShape (b : XfrBody S) : Prop :=
  ∀ p, b.amountProof = .assetMix p → 2 ≤ b.outputs.length ∧ b.outputs.length ≤ b.inputs.length

/-- the transfers that cannot burn either -/
def Exact (b : XfrBody S) : Prop :=
  match b.amountProof with
  | .confAmount _ | .confAll _ _ => False
  | .assetMix _ => b.outputs.length = b.inputs.length
  | .confAsset _ | .noProof => True

end Spec

/-! ### Lemmas -/

omit [AddCommGroup S.G] [Module S.F S.G] [DecidableEq S.CG] [DecidableEq S.AT] [DecidableEq S.EK] [DecidableEq S.F]
  [ScalarRepr S.F] in
theorem holdings_length (rs : List (BlindAssetRecord S)) (as : List (Nat × S.F)) (ts : List (S.F × S.F)) :
    (holdings E rs as ts).length = rs.length := by
  induction rs generalizing as ts with
  | nil => rfl
  | cons r rs ih => simp [holdings, ih]

omit [DecidableEq S.CG] [DecidableEq S.AT] [DecidableEq S.EK] [DecidableEq S.F] [ScalarRepr S.F] in
/-- a held type is what the type commitment commits to -/
theorem typeCom_of_holds (r : XfrAssetType S) (h : Holding S) (hh : HoldsType E r h) :
    E.typeCom r = some (h.ty • E.B + h.tyBlind • E.Bb) := by
  cases r with
  | plain t => obtain ⟨h1, h2⟩ := hh; simp [Ext.typeCom, Ext.commit, h1, h2]
  | conf c => exact hh

omit [DecidableEq S.CG] [DecidableEq S.AT] [DecidableEq S.EK] [DecidableEq S.F] [ScalarRepr S.F] in
/-- a held amount is what the recombined commitment commits to -/
theorem amountComs_of_holds (a : XfrAmount S) (h : Holding S) (hh : HoldsAmount E a h) :
    ∃ c, E.amountComs a = some c ∧ c.1 + (2 ^ 32 : S.F) • c.2 = (h.amount : S.F) • E.B + h.blind • E.Bb := by
  cases a with
  | plain v =>
    obtain ⟨h1, h2⟩ := hh
    obtain ⟨s1, s2⟩ := splitU64_toNat v
    refine ⟨_, rfl, ?_⟩
    have hv : (h.amount : S.F) = ((v.toNat % 2 ^ 32 : Nat) : S.F) + 2 ^ 32 * ((v.toNat / 2 ^ 32 : Nat) : S.F) := by
      have : v.toNat = v.toNat % 2 ^ 32 + 2 ^ 32 * (v.toNat / 2 ^ 32) := by omega
      rw [h1]
      conv_lhs => rw [this]
      push_cast; ring
    simp only [Ext.commit, limbs, s1, s2, hv, h2]
    module
  | conf lo hi =>
    obtain ⟨l, u, h1, h2, h3⟩ := hh
    exact ⟨(l, u), by simp [Ext.amountComs, h1, h2], h3⟩

omit [DecidableEq S.CG] [DecidableEq S.AT] [DecidableEq S.EK] [DecidableEq S.F] [ScalarRepr S.F] in
theorem foldlM_holds (rs : List (BlindAssetRecord S)) (hs : List (Holding S))
    (h : List.Forall₂ (fun r h => HoldsAmount E r.amount h) rs hs) (acc : S.G × S.G) :
    ∃ c, rs.foldlM (fun acc r => do
      let c ← E.amountComs r.amount
      pure (acc.1 + c.1, acc.2 + c.2)) acc = some c ∧
    c.1 + (2 ^ 32 : S.F) • c.2 = acc.1 + (2 ^ 32 : S.F) • acc.2 +
      (((hs.map (·.amount)).sum : Nat) : S.F) • E.B + (hs.map (·.blind)).sum • E.Bb := by
  induction h generalizing acc with
  | nil => exact ⟨acc, rfl, by simp⟩
  | @cons r o rs os h1 _ ih =>
    obtain ⟨c, hc, hcc⟩ := amountComs_of_holds E _ _ h1
    obtain ⟨d, hd, hdd⟩ := ih (acc.1 + c.1, acc.2 + c.2)
    refine ⟨d, ?_, ?_⟩
    · rw [List.foldlM_cons, hc]
      exact hd
    · rw [hdd]
      simp only [List.map_cons, List.sum_cons, Nat.cast_add]
      have e : acc.1 + c.1 + (2 ^ 32 : S.F) • (acc.2 + c.2) =
          acc.1 + (2 ^ 32 : S.F) • acc.2 + ((o.amount : S.F) • E.B + o.blind • E.Bb) := by
        rw [← hcc]; module
      rw [e]
      module

omit [DecidableEq S.CG] [DecidableEq S.AT] [DecidableEq S.EK] [DecidableEq S.F] [ScalarRepr S.F] in
theorem totalComs_of_holds (rs : List (BlindAssetRecord S)) (hs : List (Holding S))
    (h : List.Forall₂ (fun r h => HoldsAmount E r.amount h) rs hs) :
    ∃ c, E.totalComs rs = some c ∧ c.1 + (2 ^ 32 : S.F) • c.2 =
      (((hs.map (·.amount)).sum : Nat) : S.F) • E.B + (hs.map (·.blind)).sum • E.Bb := by
  obtain ⟨c, hc, hcc⟩ := foldlM_holds E rs hs h (0, 0)
  exact ⟨c, hc, by simpa using hcc⟩

omit [DecidableEq S.CG] [DecidableEq S.AT] [DecidableEq S.EK] [DecidableEq S.F] [ScalarRepr S.F] in
/-- the amounts of the outputs are held when the hidden ones were extracted -/
theorem holdings_amounts (rs : List (BlindAssetRecord S)) (as : List (Nat × S.F)) (ts : List (S.F × S.F))
    (h : (∀ r ∈ rs, ∃ v, r.amount = .plain v) ∨ List.Forall₂ (fun r (a : Nat × S.F) => ∀ lo hi, r.amount = .conf lo hi →
      ∃ l u, E.decompress lo = some l ∧ E.decompress hi = some u ∧
        l + (2 ^ 32 : S.F) • u = (a.1 : S.F) • E.B + a.2 • E.Bb) rs as) :
    List.Forall₂ (fun r h => HoldsAmount E r.amount h) rs (holdings E rs as ts) := by
  induction rs generalizing as ts with
  | nil => exact .nil
  | cons r rs ih =>
    rcases h with h | h
    · obtain ⟨v, hv⟩ := h r (by simp)
      exact .cons (by simp [HoldsAmount, holdingOf, hv]) (ih _ _ (.inl fun r hr => h r (by simp [hr])))
    · cases h with
      | @cons _ a _ as h1 h2 =>
        refine .cons ?_ (ih _ _ (.inr h2))
        cases ha : r.amount with
        | plain v => simp [HoldsAmount, holdingOf, ha]
        | conf lo hi =>
          obtain ⟨l, u, e1, e2, e3⟩ := h1 lo hi ha
          exact ⟨l, u, e1, e2, by simpa [holdingOf, ha] using e3⟩

omit [DecidableEq S.CG] [DecidableEq S.AT] [DecidableEq S.EK] [DecidableEq S.F] [ScalarRepr S.F] in
/-- the types of the outputs are held when the hidden ones were extracted -/
theorem holdings_types (rs : List (BlindAssetRecord S)) (as : List (Nat × S.F)) (ts : List (S.F × S.F))
    (h : (∀ r ∈ rs, ∃ t, r.assetType = .plain t) ∨ List.Forall₂ (fun r (t : S.F × S.F) => ∀ c, r.assetType = .conf c →
      E.decompress c = some (t.1 • E.B + t.2 • E.Bb)) rs ts) :
    List.Forall₂ (fun r h => HoldsType E r.assetType h) rs (holdings E rs as ts) := by
  induction rs generalizing as ts with
  | nil => exact .nil
  | cons r rs ih =>
    rcases h with h | h
    · obtain ⟨t, ht⟩ := h r (by simp)
      exact .cons (by simp [HoldsType, holdingOf, ht]) (ih _ _ (.inl fun r hr => h r (by simp [hr])))
    · cases h with
      | @cons _ a _ as h1 h2 =>
        refine .cons ?_ (ih _ _ (.inr h2))
        cases ha : r.assetType with
        | plain t => simp [HoldsType, holdingOf, ha]
        | conf c =>
          have := h1 c ha
          show E.decompress c = _
          simpa [holdingOf, ha] using this

omit [DecidableEq S.CG] [DecidableEq S.AT] [DecidableEq S.EK] [ScalarRepr S.F] [Field S.F] [AddCommGroup S.G] [Module S.F S.G] in
theorem held_same (v t : S.F) (l : List (Holding S)) (h : ∀ x ∈ l, x.ty = v) :
    held t l = if v = t then (l.map (·.amount)).sum else 0 := by
  unfold held
  induction l with
  | nil => simp
  | cons x l ih =>
    simp only [List.map_cons, List.sum_cons]
    rw [ih fun y hy => h y (by simp [hy]), h x (by simp)]
    split <;> simp

omit [DecidableEq S.CG] [DecidableEq S.AT] [DecidableEq S.EK] [ScalarRepr S.F] [Field S.F] [AddCommGroup S.G] [Module S.F S.G] in
theorem held_pairs (t : S.F) (l : List (Holding S)) : held t l = R1cs.total t (l.map fun h => (h.amount, h.ty)) := by
  unfold held R1cs.total
  induction l with
  | nil => rfl
  | cons x l ih =>
    simp only [List.map_cons, List.sum_cons, List.filter_cons]
    by_cases h : x.ty = t <;> simp [h, ih]

theorem forall2_mem_right {α β : Type} {R : α → β → Prop} {l : List α} {m : List β} (h : List.Forall₂ R l m) :
    ∀ y ∈ m, ∃ x ∈ l, R x y := by
  induction h with
  | nil => simp
  | @cons a b l m h1 _ ih =>
    intro y hy
    rcases List.mem_cons.mp hy with rfl | hy
    · exact ⟨a, by simp, h1⟩
    · obtain ⟨x, hx, hr⟩ := ih y hy
      exact ⟨x, by simp [hx], hr⟩

theorem forall2_mem_left {α β : Type} {R : α → β → Prop} {l : List α} {m : List β} (h : List.Forall₂ R l m) :
    ∀ x ∈ l, ∃ y ∈ m, R x y := by
  induction h with
  | nil => simp
  | @cons a b l m h1 _ ih =>
    intro y hy
    rcases List.mem_cons.mp hy with rfl | hy
    · exact ⟨b, by simp, h1⟩
    · obtain ⟨x, hx, hr⟩ := ih y hy
      exact ⟨x, by simp [hx], hr⟩

omit [DecidableEq S.CG] [DecidableEq S.AT] [DecidableEq S.EK] [DecidableEq S.F] [ScalarRepr S.F] in
/-- amounts that are public are 64-bit numbers -/
theorem amount_lt_of_plain (a : XfrAmount S) (h : Holding S) (hp : ∃ v, a = .plain v) (hh : HoldsAmount E a h) :
    h.amount < 2 ^ 64 := by
  obtain ⟨v, rfl⟩ := hp
  rw [hh.1]
  exact v.toNat_lt

omit [DecidableEq S.CG] [DecidableEq S.AT] [DecidableEq S.EK] [DecidableEq S.F] [ScalarRepr S.F] in
theorem holds_of (rs : List (BlindAssetRecord S)) (hs : List (Holding S))
    (h1 : List.Forall₂ (fun r h => HoldsAmount E r.amount h) rs hs)
    (h2 : List.Forall₂ (fun r h => HoldsType E r.assetType h) rs hs) (h3 : ∀ h ∈ hs, h.amount < 2 ^ 64) :
    List.Forall₂ (Holds E) rs hs := by
  induction h1 with
  | nil => exact .nil
  | cons a _ ih =>
    cases h2 with
    | cons b h2 => exact .cons ⟨h3 _ (by simp), a, b⟩ (ih h2 fun h hh => h3 h (by simp [hh]))

omit [Field S.F] [AddCommGroup S.G] [Module S.F S.G] [DecidableEq S.CG] [DecidableEq S.AT] [DecidableEq S.EK]
  [DecidableEq S.F] [ScalarRepr S.F] in
theorem sum_amount_le (hs : List (Holding S)) (n : Nat) (hn : hs.length ≤ n) (h : ∀ x ∈ hs, x.amount < 2 ^ 64) :
    (hs.map (·.amount)).sum ≤ n * (2 ^ 64 - 1) := by
  have : (hs.map (·.amount)).sum ≤ hs.length * (2 ^ 64 - 1) := by
    clear hn
    induction hs with
    | nil => simp
    | cons o os ih =>
      have h1 := h o (by simp)
      have h2 := ih (fun o ho => h o (by simp [ho]))
      simp only [List.map_cons, List.sum_cons, List.length_cons]
      rw [Nat.add_mul]; omega
  exact this.trans (Nat.mul_le_mul_right _ hn)

/-! ### The three proofs -/

omit [DecidableEq S.AT] [DecidableEq S.EK] [DecidableEq S.F] [ScalarRepr S.F] in
/-- the proof about hidden amounts: the outputs hold the extracted amounts, and inputs, outputs and difference add up, or the
generators are related -/
theorem amounts_step (hF : CastInj S.F) (hEnc : ∀ g, E.decompress (E.compress g) = some g) (X : Extractors S)
    (hx : RangeExtractor E X.range) (b : XfrBody S) (p : RangeProof S)
    (h : E.batchConfidentialAmount [(b.inputs, b.outputs, p)] = some ())
    (ins : List (Holding S)) (hin : List.Forall₂ (fun r h => HoldsAmount E r.amount h) b.inputs ins)
    (hlt : ∀ x ∈ ins, x.amount < 2 ^ 64) (hli : b.inputs.length ≤ 2 ^ 64) (hlo : b.outputs.length ≤ 2 ^ 64)
    (ts : List (S.F × S.F)) (hs : List (Holding S))
    (hhs : hs = holdings E b.outputs ((outputOpenings b.outputs (X.range p.proof (rangeComs E b p))).map
      fun o => (o.value, o.rlo + 2 ^ 32 * o.rhi)) ts) :
    List.Forall₂ (fun r h => HoldsAmount E r.amount h) b.outputs hs ∧ (∀ x ∈ hs, x.amount < 2 ^ 64) ∧
      ((ins.map (·.amount)).sum = (hs.map (·.amount)).sum + (burnt E X b p).value ∨
        (((ins.map (·.amount)).sum : Nat) : S.F) - ((hs.map (·.amount)).sum + (burnt E X b p).value : Nat) ≠ 0 ∧
        ((((ins.map (·.amount)).sum : Nat) : S.F) - ((hs.map (·.amount)).sum + (burnt E X b p).value : Nat)) • E.B +
          ((ins.map (·.blind)).sum - (hs.map (·.blind)).sum - blind [burnt E X b p]) • E.Bb = 0) := by
  unfold Ext.batchConfidentialAmount at h
  obtain ⟨cs, hcs, h⟩ := Option.bind_eq_some_iff.mp h
  rw [mapM_some_forall2] at hcs
  cases hcs with
  | @cons _ coms _ _ hc hnil =>
  cases hnil
  simp only [List.map_cons, List.map_nil, List.zip_cons_cons, List.zip_nil_right, ite_unit_iff] at h
  have hrc : rangeComs E b p = coms := by unfold rangeComs; rw [show E.extractValueCommitments b.inputs b.outputs p = some coms from hc]; rfl
  obtain ⟨oc, hoc, k, hk⟩ := C16_range_check_covers_outputs E b.inputs b.outputs p coms hc
  have hext := hx _ _ h
  obtain ⟨h1, h2⟩ := openings_of_extracted E hEnc b.outputs oc hoc p.diffLow p.diffHigh _ (X.range p.proof coms)
    (by rw [hk] at hext; rwa [hk])
  rw [hrc] at hhs
  have hburnt : burnt E X b p = diffOpening b.outputs (X.range p.proof coms) := by unfold burnt; rw [hrc]
  rw [← hburnt] at h2
  generalize burnt E X b p = d at h2 ⊢
  generalize outputOpenings b.outputs (X.range p.proof coms) = oo at h1 hhs
  -- the outputs
  have hout : List.Forall₂ (fun r h => HoldsAmount E r.amount h) b.outputs hs := by
    rw [hhs]
    refine holdings_amounts E _ _ _ (.inr ?_)
    rw [List.forall₂_map_right_iff]
    refine h1.imp fun r o ho lo hi hr => ?_
    obtain ⟨_, _, ho⟩ := ho
    rw [hr] at ho
    refine ⟨_, _, ho.1, ho.2, ?_⟩
    simp only [Opening.value]
    push_cast
    module
  have hoLt : ∀ x ∈ hs, x.amount < 2 ^ 64 := by
    rw [hhs]
    clear hhs hout hoc
    generalize b.outputs = outs at h1
    induction h1 generalizing ts with
    | nil => simp [holdings]
    | @cons r o rs os h1 _ ih =>
      intro x hx
      simp only [List.map_cons, holdings, List.headD_cons, List.tail_cons, List.mem_cons] at hx
      rcases hx with rfl | hx
      · simp only [holdingOf]
        split
        · rename_i v _; exact v.toNat_lt
        · obtain ⟨b1, b2, _⟩ := h1
          simp only [Opening.value]; omega
      · exact ih _ x hx
  refine ⟨hout, hoLt, ?_⟩
  -- the balance
  obtain ⟨ci, hci, eci⟩ := totalComs_of_holds E b.inputs ins hin
  obtain ⟨co, hco, eco⟩ := totalComs_of_holds E b.outputs hs hout
  unfold Ext.extractValueCommitments at hc
  simp only [hci, hco, Option.bind_eq_bind, Option.bind_some] at hc
  obtain ⟨_, _, hc⟩ := Option.bind_eq_some_iff.mp hc
  obtain ⟨d1, d2, d3, d4⟩ := h2
  rw [d3, d4] at hc
  simp only [Option.bind_some] at hc
  split at hc
  · simp at hc
  rename_i hne
  have hinj : ∀ a b, E.compress a = E.compress b → a = b := by
    intro a b hab
    have := congrArg E.decompress hab
    rw [hEnc, hEnc] at this
    exact Option.some.inj this
  have heq := hinj _ _ (not_not.mp hne)
  have e32 : ((POW_2_32 : Nat) : S.F) = (2 : S.F) ^ 32 := by
    have : POW_2_32 = 2 ^ 32 := rfl
    rw [this]; norm_num
  rw [e32] at heq
  have heq' : (ci.1 + (2 ^ 32 : S.F) • ci.2) - (co.1 + (2 ^ 32 : S.F) • co.2) -
      ((d.lo : S.F) • E.B + d.rlo • E.Bb + (2 ^ 32 : S.F) • ((d.hi : S.F) • E.B + d.rhi • E.Bb)) = 0 := by
    rw [← heq]; module
  rw [eci, eco] at heq'
  by_cases hz : (ins.map (·.amount)).sum = (hs.map (·.amount)).sum + d.value
  · exact .inl hz
  · refine .inr ⟨fun h0 => hz ?_, ?_⟩
    · have b1 := sum_amount_le ins (2 ^ 64) (hin.length_eq ▸ hli) hlt
      have b2 := sum_amount_le hs (2 ^ 64) (hout.length_eq ▸ hlo) hoLt
      have b3 : d.value < 2 ^ 64 := by unfold Opening.value; omega
      exact hF _ _ (by omega) (by omega) (sub_eq_zero.mp h0)
    · rw [← heq']
      simp only [blind, List.map_cons, List.map_nil, List.sum_cons, List.sum_nil, Opening.value]
      push_cast
      module

omit [DecidableEq S.CG] [DecidableEq S.AT] [DecidableEq S.EK] [ScalarRepr S.F] in
/-- openings of type commitments to one value: the holdings have this type, or a commitment is opened twice -/
theorem types_clash (rs : List (BlindAssetRecord S)) (coms : List S.G) (v : S.F) (bl : List S.F) (hs : List (Holding S))
    (h1 : List.Forall₂ (fun r c => E.typeCom r.assetType = some c) rs coms)
    (h2 : List.Forall₂ (fun c r => c = v • E.B + r • E.Bb) coms bl)
    (h3 : List.Forall₂ (fun r h => HoldsType E r.assetType h) rs hs) :
    (∀ h ∈ hs, h.ty = v) ∨ ∃ e ∈ hs.zip bl, e.1.ty ≠ v ∧ e.1.ty • E.B + e.1.tyBlind • E.Bb = v • E.B + e.2 • E.Bb := by
  induction h1 generalizing bl hs with
  | nil => cases h3; simp
  | @cons r c rs coms h1 _ ih =>
    cases h2 with
    | @cons _ s _ bl h2 h2' =>
    cases h3 with
    | @cons _ h _ hs h3 h3' =>
      rw [typeCom_of_holds E _ _ h3, Option.some.injEq] at h1
      by_cases hv : h.ty = v
      · rcases ih _ _ h2' h3' with h | ⟨e, he, h⟩
        · exact .inl (by intro x hx; rcases List.mem_cons.mp hx with rfl | hx; exacts [hv, h x hx])
        · exact .inr ⟨e, by simp [he], h⟩
      · exact .inr ⟨(h, s), by simp, hv, h1.trans h2⟩

omit [DecidableEq S.CG] [DecidableEq S.AT] [DecidableEq S.EK] [ScalarRepr S.F] in
/-- the proof about hidden types: the outputs hold the extracted type, and so do all records, or a commitment is opened
twice -/
theorem types_step (X : Extractors S)
    (hx : ∀ coms pf, E.batchAsset [(coms, pf)] = true →
      List.Forall₂ (fun c r => c = (X.type pf coms).1 • E.B + r • E.Bb) coms (X.type pf coms).2)
    (b : XfrBody S) (q : S.AP) (h : E.batchConfidentialAsset [(b.inputs, b.outputs, q)] = some ())
    (ins : List (Holding S)) (hin : List.Forall₂ (fun r h => HoldsType E r.assetType h) b.inputs ins)
    (as : List (Nat × S.F)) (hs : List (Holding S))
    (hhs : hs = holdings E b.outputs as
      (((X.type q (typeComs E b)).2.drop b.inputs.length).map fun r => ((X.type q (typeComs E b)).1, r))) :
    List.Forall₂ (fun r h => HoldsType E r.assetType h) b.outputs hs ∧
      ((∀ x ∈ ins ++ hs, x.ty = (X.type q (typeComs E b)).1) ∨
        ∃ e ∈ (ins ++ hs).zip (X.type q (typeComs E b)).2, e.1.ty ≠ (X.type q (typeComs E b)).1 ∧
          e.1.ty • E.B + e.1.tyBlind • E.Bb = (X.type q (typeComs E b)).1 • E.B + e.2 • E.Bb) := by
  unfold Ext.batchConfidentialAsset at h
  obtain ⟨cs, hcs, h⟩ := Option.bind_eq_some_iff.mp h
  rw [mapM_some_forall2] at hcs
  cases hcs with
  | @cons _ c _ _ hc hnil =>
  cases hnil
  obtain ⟨coms, hcoms, hc⟩ := Option.bind_eq_some_iff.mp hc
  simp only [pure, Option.some.injEq] at hc
  subst hc
  rw [ite_unit_iff] at h
  have htc : typeComs E b = coms := by
    unfold typeComs
    rw [show (b.inputs ++ b.outputs).mapM (fun r => E.typeCom r.assetType) = some coms from hcoms]
    rfl
  rw [htc] at hhs ⊢
  have hop := hx _ _ h
  rw [mapM_some_forall2] at hcoms
  have hout : List.Forall₂ (fun r h => HoldsType E r.assetType h) b.outputs hs := by
    rw [hhs]
    refine holdings_types E _ _ _ (.inr ?_)
    rw [List.forall₂_map_right_iff]
    have a1 := List.forall₂_drop b.inputs.length hcoms
    have a2 := List.forall₂_drop b.inputs.length hop
    simp only [List.drop_left] at a1
    generalize (X.type q coms).2.drop b.inputs.length = bl at a2 ⊢
    generalize coms.drop b.inputs.length = cc at a1 a2
    clear hhs hin hcoms hop
    generalize b.outputs = outs at a1 ⊢
    induction a1 generalizing bl with
    | nil => cases a2; exact .nil
    | cons h1 _ ih =>
      cases a2 with
      | cons h2 h3 =>
        refine .cons (fun c hc => ?_) (ih _ h3)
        rw [hc] at h1
        exact h1.trans (congrArg some h2)
  exact ⟨hout, types_clash E _ _ _ _ _ hcoms hop (List.rel_append hin hout)⟩

omit [DecidableEq S.CG] [DecidableEq S.AT] [DecidableEq S.EK] [DecidableEq S.F] [ScalarRepr S.F] in
/-- what the mixing proof says about a record, `o` being the opening extracted -/
theorem processBars_opens (hEnc : ∀ g, E.decompress (E.compress g) = some g) (rs : List (BlindAssetRecord S))
    (cs : List (S.CG × S.CG)) (h : E.processBars rs = some cs) (os : List ((S.F × S.F) × (S.F × S.F)))
    (ho : List.Forall₂ (MixOpens E) cs os) :
    List.Forall₂ (fun r (o : (S.F × S.F) × (S.F × S.F)) =>
      (∃ c, E.amountComs r.amount = some c ∧ c.1 + (2 ^ 32 : S.F) • c.2 = o.1.1 • E.B + o.1.2 • E.Bb) ∧
      E.typeCom r.assetType = some (o.2.1 • E.B + o.2.2 • E.Bb)) rs os := by
  unfold Ext.processBars at h
  rw [mapM_some_forall2] at h
  have e32 : ((POW_2_32 : Nat) : S.F) = (2 : S.F) ^ 32 := by
    have : POW_2_32 = 2 ^ 32 := rfl
    rw [this]; norm_num
  induction h generalizing os with
  | nil => cases ho; exact .nil
  | @cons r c rs cs h1 _ ih =>
    cases ho with
    | cons a1 a2 =>
      refine .cons ?_ (ih _ a2)
      obtain ⟨k, hk, h1⟩ := Option.bind_eq_some_iff.mp h1
      simp only [pure, Option.some.injEq] at h1
      subst h1
      obtain ⟨m1, m2⟩ := a1
      simp only [hEnc, Option.some.injEq, e32] at m1
      refine ⟨⟨k, hk, m1⟩, ?_⟩
      cases ht : r.assetType with
      | plain t => rw [ht] at m2; simp only [hEnc] at m2; exact m2
      | conf c => rw [ht] at m2; exact m2

omit [DecidableEq S.CG] [DecidableEq S.AT] [DecidableEq S.EK] [ScalarRepr S.F] in
/-- the holdings agree with the openings of the mixing proof, or a commitment is opened twice -/
theorem mix_clash (rs : List (BlindAssetRecord S)) (os : List ((S.F × S.F) × (S.F × S.F))) (hs : List (Holding S))
    (h1 : List.Forall₂ (fun r (o : (S.F × S.F) × (S.F × S.F)) =>
      (∃ c, E.amountComs r.amount = some c ∧ c.1 + (2 ^ 32 : S.F) • c.2 = o.1.1 • E.B + o.1.2 • E.Bb) ∧
      E.typeCom r.assetType = some (o.2.1 • E.B + o.2.2 • E.Bb)) rs os)
    (h2 : List.Forall₂ (fun r h => HoldsAmount E r.amount h) rs hs)
    (h3 : List.Forall₂ (fun r h => HoldsType E r.assetType h) rs hs) :
    MixWitness.pairs os = R1cs.vals (hs.map fun h => (h.amount, h.ty)) ∨
    (∃ e ∈ hs.zip os, (e.1.amount : S.F) ≠ e.2.1.1 ∧
      (e.1.amount : S.F) • E.B + e.1.blind • E.Bb = e.2.1.1 • E.B + e.2.1.2 • E.Bb) ∨
    ∃ e ∈ hs.zip os, e.1.ty ≠ e.2.2.1 ∧ e.1.ty • E.B + e.1.tyBlind • E.Bb = e.2.2.1 • E.B + e.2.2.2 • E.Bb := by
  induction h1 generalizing hs with
  | nil => cases h2; exact .inl rfl
  | @cons r o rs os h1 _ ih =>
    cases h2 with
    | @cons _ h _ hs h2 h2' =>
    cases h3 with
    | cons h3 h3' =>
      obtain ⟨⟨c, hc, ec⟩, et⟩ := h1
      obtain ⟨c', hc', ec'⟩ := amountComs_of_holds E _ _ h2
      rw [hc, Option.some.injEq] at hc'
      subst hc'
      rw [typeCom_of_holds E _ _ h3, Option.some.injEq] at et
      by_cases ha : (h.amount : S.F) = o.1.1
      · by_cases ht : h.ty = o.2.1
        · rcases ih _ h2' h3' with h | ⟨e, he, h⟩ | ⟨e, he, h⟩
          · left
            simp only [MixWitness.pairs, R1cs.vals, List.map_cons] at h ⊢
            rw [h, ha, ht]
          · exact .inr (.inl ⟨e, by simp [he], h⟩)
          · exact .inr (.inr ⟨e, by simp [he], h⟩)
        · exact .inr (.inr ⟨(h, o), by simp, ht, et⟩)
      · exact .inr (.inl ⟨(h, o), by simp, ha, ec'.symm.trans ec⟩)

omit [DecidableEq S.F] [AddCommGroup S.G] [Module S.F S.G] [DecidableEq S.CG] [DecidableEq S.AT] [DecidableEq S.EK] in
theorem vals_inj (l m : List (Nat × S.F)) (hl : ∀ p ∈ l, p.1 < ScalarRepr.order S.F)
    (hm : ∀ p ∈ m, p.1 < ScalarRepr.order S.F) (h : R1cs.vals l = R1cs.vals m) : l = m := by
  induction l generalizing m with
  | nil => cases m with
    | nil => rfl
    | cons => simp [R1cs.vals] at h
  | cons p l ih => cases m with
    | nil => simp [R1cs.vals] at h
    | cons q m =>
      simp only [R1cs.vals, List.map_cons, List.cons.injEq, Prod.mk.injEq] at h
      obtain ⟨⟨h1, h2⟩, h3⟩ := h
      have := congrArg ScalarRepr.val h1
      rw [ScalarRepr.val_cast _ (hl p (by simp)), ScalarRepr.val_cast _ (hm q (by simp))] at this
      rw [Prod.ext this h2, ih m (fun p hp => hl p (by simp [hp])) (fun p hp => hm p (by simp [hp])) h3]

omit [AddCommGroup S.G] [Module S.F S.G] [DecidableEq S.CG] [DecidableEq S.AT] [DecidableEq S.EK] [DecidableEq S.F]
  [ScalarRepr S.F] in
theorem holdings_lt (n : Nat) (hn : 2 ^ 64 ≤ n) (rs : List (BlindAssetRecord S)) (as : List (Nat × S.F))
    (ts : List (S.F × S.F)) (h : ∀ a ∈ as, a.1 < n) : ∀ x ∈ holdings E rs as ts, x.amount < n := by
  induction rs generalizing as ts with
  | nil => simp [holdings]
  | cons r rs ih =>
    intro x hx
    simp only [holdings, List.mem_cons] at hx
    rcases hx with rfl | hx
    · simp only [holdingOf]
      split
      · rename_i v _; exact lt_of_lt_of_le v.toNat_lt hn
      · cases as with
        | nil => simp only [List.headD_nil]; omega
        | cons a as => exact h a (by simp)
    · exact ih _ _ (fun a ha => h a (List.mem_of_mem_tail ha)) x hx

omit [DecidableEq S.AT] [DecidableEq S.EK] in
/-- the mixing proof -/
theorem mix_step [Fintype S.F] (hO : 2 ^ 192 ≤ ScalarRepr.order S.F) (hEnc : ∀ g, E.decompress (E.compress g) = some g)
    (X : Extractors S) (hX : X.Sound E) (b : XfrBody S) (p : S.MP) (hp : b.amountProof = .assetMix p)
    (h : E.batchAssetMix [(b.inputs, b.outputs, p)] = some ())
    (ins : List (Holding S)) (hin : List.Forall₂ (Holds E) b.inputs ins)
    (hshape : 2 ≤ b.outputs.length ∧ b.outputs.length ≤ b.inputs.length) (hli : b.inputs.length ≤ 2 ^ 64) :
    Broken E X ins b ∨ List.Forall₂ (Holds E) b.outputs (outHoldings E X b) ∧
      ∀ t, held t (outHoldings E X b) ≤ held t ins ∧
        (b.outputs.length = b.inputs.length → held t (outHoldings E X b) = held t ins) := by
  unfold Ext.batchAssetMix at h
  obtain ⟨cs, hcs, h⟩ := Option.bind_eq_some_iff.mp h
  rw [mapM_some_forall2] at hcs
  cases hcs with
  | @cons _ c _ _ hc hnil =>
  cases hnil
  obtain ⟨ci, hci, hc⟩ := Option.bind_eq_some_iff.mp hc
  obtain ⟨co, hco, hc⟩ := Option.bind_eq_some_iff.mp hc
  simp only [pure, Option.some.injEq] at hc
  subst hc
  rw [ite_unit_iff] at h
  simp only at hci hco h
  obtain ⟨w1, w2, g, st, hrun, hsat⟩ := hX.mix _ _ _ h
  have hw : X.mix p ci co = mixWitness E X b p := by unfold mixWitness; rw [hci, hco]; rfl
  rw [hw] at w1 w2 hrun hsat
  have o1 := processBars_opens E hEnc _ _ hci _ w1
  have o2 := processBars_opens E hEnc _ _ hco _ w2
  obtain ⟨hs, hhs⟩ : ∃ hs, hs = outHoldings E X b := ⟨_, rfl⟩
  have ehs : hs = holdings E b.outputs ((mixWitness E X b p).outs.map fun o => (ScalarRepr.val o.1.1, o.1.2))
      ((mixWitness E X b p).outs.map fun o => o.2) := by
    rw [hhs]; unfold outHoldings outAmounts outTypes; rw [hp]
  have hA : List.Forall₂ (fun r h => HoldsAmount E r.amount h) b.outputs hs := by
    rw [ehs]
    refine holdings_amounts E _ _ _ (.inr ?_)
    rw [List.forall₂_map_right_iff]
    refine o2.imp fun r o ho lo hi hr => ?_
    obtain ⟨⟨c, hc, ec⟩, _⟩ := ho
    rw [hr] at hc
    obtain ⟨l, hl, hc⟩ := Option.bind_eq_some_iff.mp hc
    obtain ⟨u, hu, hc⟩ := Option.bind_eq_some_iff.mp hc
    simp only [pure, Option.some.injEq] at hc
    subst hc
    exact ⟨l, u, hl, hu, by rw [ScalarRepr.cast_val]; exact ec⟩
  have hT : List.Forall₂ (fun r h => HoldsType E r.assetType h) b.outputs hs := by
    rw [ehs]
    refine holdings_types E _ _ _ (.inr ?_)
    rw [List.forall₂_map_right_iff]
    refine o2.imp fun r o ho c hr => ?_
    have := ho.2
    rw [hr] at this
    exact this
  have hlt : ∀ x ∈ hs, x.amount < ScalarRepr.order S.F := by
    rw [ehs]
    refine holdings_lt E _ (le_trans (by norm_num) hO) _ _ _ fun a ha => ?_
    obtain ⟨o, _, rfl⟩ := List.mem_map.mp ha
    exact ScalarRepr.val_lt _
  rw [← hhs]
  have iA := hin.imp fun _ _ h => h.2.1
  have iT := hin.imp fun _ _ h => h.2.2
  rcases mix_clash E _ _ _ (List.rel_append o1 o2) (List.rel_append iA hA) (List.rel_append iT hT) with
    heq | ⟨e, he, hne, hrel⟩ | ⟨e, he, hne, hrel⟩
  · have heq' : MixWitness.pairs (mixWitness E X b p).ins = R1cs.vals (ins.map fun h => (h.amount, h.ty)) ∧
        MixWitness.pairs (mixWitness E X b p).outs = R1cs.vals (hs.map fun h => (h.amount, h.ty)) := by
      simp only [MixWitness.pairs, R1cs.vals, List.map_append] at heq ⊢
      refine List.append_inj heq ?_
      simp only [List.length_map]
      rw [← o1.length_eq, ← hin.length_eq]
    rw [heq'.1] at hrun
    have hN : ∀ q ∈ ins.map (fun h => (h.amount, h.ty)), q.1 < 2 ^ 64 := by
      intro q hq
      obtain ⟨x, hx, rfl⟩ := List.mem_map.mp hq
      obtain ⟨_, _, hh⟩ := forall2_mem_right hin x hx
      exact hh.1
    have hl1 : (MixWitness.pairs (mixWitness E X b p).outs).length = b.outputs.length := by
      simp only [MixWitness.pairs, List.length_map]; exact o2.length_eq.symm
    have hl2 : (ins.map fun h => (h.amount, h.ty)).length = b.inputs.length := by
      rw [List.length_map]; exact hin.length_eq.symm
    rcases R1cs.C26_mix_sound_partial (ins.map fun h => (h.amount, h.ty)) _ hN (by rw [hl1]; exact hshape.1)
      (by rw [hl1, hl2]; exact hshape.2) (by rw [hl2]; refine le_trans ?_ hO; exact (Nat.mul_le_mul_right _ hli).trans (by norm_num))
      _ g st hrun with ⟨N', e1, e2, e3⟩ | ⟨i, bad, hbad, hfew⟩
    · have e4 : hs.map (fun h => (h.amount, h.ty)) = N' := by
        refine vals_inj _ _ ?_ (fun q hq => lt_of_lt_of_le (e2 q hq) (le_trans (by norm_num) hO)) (heq'.2.symm.trans e1)
        intro q hq
        obtain ⟨x, hx, rfl⟩ := List.mem_map.mp hq
        exact hlt x hx
      right
      refine ⟨holds_of E _ _ hA hT ?_, fun t => ?_⟩
      · intro x hx
        exact e2 (x.amount, x.ty) (by rw [← e4]; exact List.mem_map.mpr ⟨x, hx, rfl⟩)
      · rw [held_pairs, held_pairs, e4]
        refine ⟨(e3 t).1, fun hl => (e3 t).2 ?_⟩
        rw [hl1, hl2]; exact hl
    · left
      rw [hl2] at hbad
      refine .lucky p hp g st (by rw [heq'.1]; exact hrun) i bad hbad hfew (hfew _ hsat)
  · exact .inl (.mixAmount p hp e (by rw [← hhs]; exact he) hne hrel)
  · exact .inl (.mixType p hp e (by rw [← hhs]; exact he) hne hrel)

omit [DecidableEq S.AT] [DecidableEq S.EK] [DecidableEq S.CG] [AddCommGroup S.G] [Module S.F S.G] [DecidableEq S.F] in
theorem castInj_of_order (hO : 2 ^ 192 ≤ ScalarRepr.order S.F) : CastInj S.F := by
  intro m n hm hn h
  have := congrArg ScalarRepr.val h
  rwa [ScalarRepr.val_cast _ (lt_of_lt_of_le hm hO), ScalarRepr.val_cast _ (lt_of_lt_of_le hn hO)] at this

omit [DecidableEq S.CG] [DecidableEq S.EK] [ScalarRepr S.F] in
/-- public records hold what they say -/
theorem held_public (rs : List (BlindAssetRecord S)) (hs : List (Holding S)) (hp : ∀ r ∈ rs, ∃ t a, IsPublic r t a)
    (h1 : List.Forall₂ (fun r h => HoldsAmount E r.amount h) rs hs)
    (h2 : List.Forall₂ (fun r h => HoldsType E r.assetType h) rs hs) :
    ∃ ps : List (S.AT × Nat), (∀ t, publicTotal t rs = (ps.map fun e => if e.1 = t then e.2 else 0).sum) ∧
      ∀ s, held s hs = (ps.map fun e => if E.asScalar e.1 = s then e.2 else 0).sum := by
  induction h1 with
  | nil => exact ⟨[], by simp [publicTotal], by simp [held]⟩
  | @cons r h rs hs a1 _ ih =>
    cases h2 with
    | cons b1 b2 =>
      obtain ⟨ps, i1, i2⟩ := ih (fun r hr => hp r (by simp [hr])) b2
      obtain ⟨t, a, ha, ht⟩ := hp r (by simp)
      rw [ha] at a1
      rw [ht] at b1
      refine ⟨(t, a.toNat) :: ps, fun u => ?_, fun u => ?_⟩
      · have := i1 u
        simp only [publicTotal, List.map_cons, List.sum_cons, units, ha, ht] at this ⊢
        rw [this]
      · have := i2 u
        simp only [held, List.map_cons, List.sum_cons] at this ⊢
        rw [this, a1.1, b1.1]

omit [DecidableEq S.EK] in
/-- One accepted transfer.  The inputs hold `ins`.  Then there is evidence of a broken assumption, or the outputs hold what
was extracted, and no type has more units in the outputs than in the inputs. -/
theorem body_step [Fintype S.F] (hO : 2 ^ 192 ≤ ScalarRepr.order S.F) (hEnc : ∀ g, E.decompress (E.compress g) = some g)
    (X : Extractors S) (hX : X.Sound E) (b : XfrBody S) (h : BodyOk E b)
    (ins : List (Holding S)) (hin : List.Forall₂ (Holds E) b.inputs ins) (hshape : MixShape b)
    (hli : b.inputs.length ≤ 2 ^ 64) (hlo : b.outputs.length ≤ 2 ^ 64) :
    Broken E X ins b ∨ List.Forall₂ (Holds E) b.outputs (outHoldings E X b) ∧
      ∀ t, held t (outHoldings E X b) ≤ held t ins ∧ (Exact b → held t (outHoldings E X b) = held t ins) := by
  have hF := castInj_of_order (S := S) hO
  have iA := hin.imp fun _ _ h => h.2.1
  have iT := hin.imp fun _ _ h => h.2.2
  have iL : ∀ x ∈ ins, x.amount < 2 ^ 64 := fun x hx => by
    obtain ⟨_, _, hh⟩ := forall2_mem_right hin x hx
    exact hh.1
  unfold BodyOk at h
  cases hp : b.amountProof with
  | noProof =>
    rw [hp] at h
    obtain ⟨h1, h2⟩ := (verifyPlainAssetMix_iff _ _).mp h
    have eh : outHoldings E X b = holdings E b.outputs [] [] := by
      unfold outHoldings outAmounts outTypes; rw [hp]
    rw [eh]
    have oA := holdings_amounts E b.outputs [] [] (.inl fun r hr => by
      obtain ⟨t, a, ha, _⟩ := h1 r (by simp [hr]); exact ⟨a, ha⟩)
    have oT := holdings_types E b.outputs [] [] (.inl fun r hr => by
      obtain ⟨t, a, _, ht⟩ := h1 r (by simp [hr]); exact ⟨t, ht⟩)
    refine .inr ⟨holds_of E _ _ oA oT fun x hx => ?_, fun t => ?_⟩
    · exact holdings_lt E _ (le_refl _) _ _ _ (by simp) x hx
    · obtain ⟨p1, a1, a2⟩ := held_public E _ _ (fun r hr => h1 r (by simp [hr])) iA iT
      obtain ⟨p2, b1, b2⟩ := held_public E _ _ (fun r hr => h1 r (by simp [hr])) oA oT
      have := balance_image (S := S) E.asScalar p1 p2 (fun t => by rw [← a1, ← b1]; exact h2 t) t
      rw [a2, b2, this]
      exact ⟨le_refl _, fun _ => rfl⟩
  | confAmount p =>
    rw [hp] at h
    obtain ⟨h1, h2⟩ := (verifyPlainAsset_iff _ _).mp h.1
    obtain ⟨oA, oL, hbal⟩ := amounts_step E hF hEnc X hX.range b p h.2 ins iA iL hli hlo [] (outHoldings E X b)
      (by unfold outHoldings outAmounts outTypes; rw [hp])
    have oT : List.Forall₂ (fun r h => HoldsType E r.assetType h) b.outputs (outHoldings E X b) :=
      holdings_types E _ _ _ (.inl fun r hr => h1 r (by simp [hr]))
    rcases hbal with hbal | ⟨hne, hrel⟩
    · refine .inr ⟨holds_of E _ _ oA oT oL, fun t => ⟨?_, fun he => absurd he (by unfold Exact; rw [hp]; exact id)⟩⟩
      have hty : ∃ v, ∀ x ∈ ins ++ outHoldings E X b, x.ty = v := by
        have hall : List.Forall₂ (fun r h => HoldsType E r.assetType h) (b.inputs ++ b.outputs) (ins ++ outHoldings E X b) :=
          List.rel_append iT oT
        by_cases hem : b.inputs ++ b.outputs = []
        · rw [hem] at hall
          cases hall' : ins ++ outHoldings E X b with
          | nil => exact ⟨0, by simp⟩
          | cons => rw [hall'] at hall; cases hall
        · obtain ⟨r0, hr0⟩ := List.exists_mem_of_ne_nil _ hem
          obtain ⟨t0, ht0⟩ := h1 r0 hr0
          refine ⟨E.asScalar t0, fun x hx => ?_⟩
          obtain ⟨r, hr, hh⟩ := forall2_mem_right hall x hx
          rw [h2 r hr r0 hr0, ht0] at hh
          exact hh.1
      obtain ⟨v, hv⟩ := hty
      rw [held_same v t _ fun x hx => hv x (by simp [hx]), held_same v t _ fun x hx => hv x (by simp [hx])]
      split
      · omega
      · exact le_refl _
    · exact .inl (.amounts p (.inl hp) _ rfl hne hrel)
  | confAsset q =>
    rw [hp] at h
    obtain ⟨h1, h2⟩ := (verifyPlainAmounts_iff _ _).mp h.1
    obtain ⟨oT, hty⟩ := types_step E X hX.type b q h.2 ins iT [] (outHoldings E X b)
      (by unfold outHoldings outAmounts outTypes; rw [hp])
    have oA : List.Forall₂ (fun r h => HoldsAmount E r.amount h) b.outputs (outHoldings E X b) :=
      holdings_amounts E _ _ _ (.inl fun r hr => h1 r (by simp [hr]))
    rcases hty with hv | ⟨e, he, hne, hrel⟩
    · have key : ∀ (rs : List (BlindAssetRecord S)) (hs : List (Holding S)), (∀ r ∈ rs, ∃ a, r.amount = .plain a) →
          List.Forall₂ (fun r h => HoldsAmount E r.amount h) rs hs →
          (∀ x ∈ hs, x.amount < 2 ^ 64) ∧ (hs.map (·.amount)).sum = (rs.map publicAmount).sum := by
        intro rs hs hpub hh
        induction hh with
        | nil => simp
        | @cons r h rs hs a1 _ ih =>
          obtain ⟨i1, i2⟩ := ih fun r hr => hpub r (by simp [hr])
          have hlt := amount_lt_of_plain E _ _ (hpub r (by simp)) a1
          obtain ⟨a, ha⟩ := hpub r (by simp)
          refine ⟨by intro x hx; rcases List.mem_cons.mp hx with rfl | hx; exacts [hlt, i1 x hx], ?_⟩
          rw [ha] at a1
          simp only [List.map_cons, List.sum_cons, i2, publicAmount, ha, a1.1]
      obtain ⟨oL, so⟩ := key _ _ (fun r hr => h1 r (by simp [hr])) oA
      obtain ⟨_, si⟩ := key _ _ (fun r hr => h1 r (by simp [hr])) iA
      refine .inr ⟨holds_of E _ _ oA oT oL, fun t => ?_⟩
      have : held t (outHoldings E X b) = held t ins := by
        rw [held_same _ t _ fun x hx => hv x (by simp [hx]), held_same _ t _ fun x hx => hv x (by simp [hx]), so, si, h2]
      rw [this]
      exact ⟨le_refl _, fun _ => rfl⟩
    · exact .inl (.type q (.inl hp) e he hne hrel)
  | confAll p q =>
    rw [hp] at h
    obtain ⟨oA, oL, hbal⟩ := amounts_step E hF hEnc X hX.range b p h.1 ins iA iL hli hlo _ (outHoldings E X b)
      (by unfold outHoldings outAmounts; rw [hp])
    obtain ⟨oT, hty⟩ := types_step E X hX.type b q h.2 ins iT _ (outHoldings E X b)
      (by unfold outHoldings outTypes; rw [hp])
    rcases hty with hv | ⟨e, he, hne, hrel⟩
    · rcases hbal with hbal | ⟨hne, hrel⟩
      · refine .inr ⟨holds_of E _ _ oA oT oL, fun t => ⟨?_, fun he => absurd he (by unfold Exact; rw [hp]; exact id)⟩⟩
        rw [held_same _ t _ fun x hx => hv x (by simp [hx]), held_same _ t _ fun x hx => hv x (by simp [hx])]
        split
        · omega
        · exact le_refl _
      · exact .inl (.amounts p (.inr ⟨q, hp⟩) _ rfl hne hrel)
    · exact .inl (.type q (.inr ⟨p, hp⟩) e he hne hrel)
  | assetMix p =>
    rw [hp] at h
    have := mix_step E hO hEnc X hX b p hp h ins hin (hshape p hp) hli
    unfold Exact
    rw [hp]
    exact this

/-! ### Histories -/

/-- A history of a ledger of records: each note was accepted, alone or in a batch, consumes its inputs and adds its outputs
(the ledger's own rule, outside of the library).  The lengths are those of Rust vectors. -/
inductive Ledger : List (BlindAssetRecord S) → List (BlindAssetRecord S) → Prop
  | nil (l) : Ledger l l
  | step {l l' rest : List (BlindAssetRecord S)} {n : XfrNote S} {notes : List (XfrNote S)} {pols : List (Policies S)}
      (h : Ledger l l') (hacc : E.batchVerifyNotes notes pols = some ()) (hn : n ∈ notes)
      (hli : n.body.inputs.length ≤ 2 ^ 64) (hlo : n.body.outputs.length ≤ 2 ^ 64)
      (hin : (n.body.inputs ++ rest).Perm l') : Ledger l (n.body.outputs ++ rest)

/-- The same with holdings: outputs enter with the extracted ones.  The list in the middle records, for every note, what its
inputs held, and its body. -/
inductive Run (X : Extractors S) : List (BlindAssetRecord S × Holding S) → List (List (Holding S) × XfrBody S) →
    List (BlindAssetRecord S × Holding S) → Prop
  | nil (l) : Run X l [] l
  | step {l l' ins rest : List (BlindAssetRecord S × Holding S)} {ss : List (List (Holding S) × XfrBody S)} {n : XfrNote S}
      {notes : List (XfrNote S)} {pols : List (Policies S)}
      (h : Run X l ss l') (hacc : E.batchVerifyNotes notes pols = some ()) (hn : n ∈ notes)
      (hli : n.body.inputs.length ≤ 2 ^ 64) (hlo : n.body.outputs.length ≤ 2 ^ 64)
      (hins : ins.map Prod.fst = n.body.inputs) (hin : (ins ++ rest).Perm l') :
      Run X l (ss ++ [(ins.map Prod.snd, n.body)]) (n.body.outputs.zip (outHoldings E X n.body) ++ rest)

omit [DecidableEq S.F] in
/-- every history can be told with holdings, whatever the first records hold -/
theorem Ledger.run (X : Extractors S) {l l' : List (BlindAssetRecord S)} (h : Ledger E l l')
    (L : List (BlindAssetRecord S × Holding S)) (hL : L.map Prod.fst = l) :
    ∃ ss L', Run E X L ss L' ∧ L'.map Prod.fst = l' := by
  induction h with
  | nil => exact ⟨[], L, .nil _, hL⟩
  | @step l' rest n notes pols _ hacc hn hli hlo hin ih =>
    obtain ⟨ss, L', hr, hL'⟩ := ih
    have h2 : List.Forall₂ (fun (a : BlindAssetRecord S) (b : BlindAssetRecord S × Holding S) => a = b.1) l' L' := by
      rw [← hL', List.forall₂_map_left_iff, List.forall₂_same]
      exact fun _ _ => rfl
    obtain ⟨m, hm, hperm⟩ := List.perm_comp_forall₂ hin h2
    have hm' : m.map Prod.fst = n.body.inputs ++ rest := by
      clear * - hm
      generalize n.body.inputs ++ rest = k at hm
      induction hm with
      | nil => rfl
      | cons h _ ih => simp [ih, h]
    have e1 : m = m.take n.body.inputs.length ++ m.drop n.body.inputs.length := (List.take_append_drop _ _).symm
    rw [e1] at hperm
    refine ⟨_, _, .step hr hacc hn hli hlo ?_ hperm, ?_⟩
    · rw [List.map_take, hm', List.take_left]
    · rw [List.map_append, List.map_drop, hm', List.drop_left, List.map_fst_zip]
      unfold outHoldings
      rw [holdings_length]

omit [DecidableEq S.F] [ScalarRepr S.F] in
theorem bodyOk_of_accepted (hB : Batching E) (notes : List (XfrNote S)) (pols : List (Policies S))
    (h : E.batchVerifyNotes notes pols = some ()) (n : XfrNote S) (hn : n ∈ notes) : BodyOk E n.body := by
  unfold Ext.batchVerifyNotes at h
  split at h
  · unfold Ext.batchVerifyBodies at h
    cases hb : E.batchAssetRecords (notes.map (·.body)) with
    | none => simp [hb] at h
    | some u => exact (batchAssetRecords_iff E hB _).mp hb n.body (List.mem_map.mpr ⟨n, hn, rfl⟩)
  · simp at h

omit [Field S.F] [AddCommGroup S.G] [Module S.F S.G] [DecidableEq S.CG] [DecidableEq S.AT] [DecidableEq S.EK]
  [ScalarRepr S.F] in
theorem held_append (t : S.F) (l m : List (Holding S)) : held t (l ++ m) = held t l + held t m := by
  simp [held]

/-- C104.  Take any history of accepted transfers of any kind, public or hidden, starting from records that hold something.
Then some transfer in it gives evidence of a broken assumption (a relation between the generators, with its numbers, or a
challenge that met one of few values), or at the end every record holds a 64-bit amount of a type and the ledger has no
more units of any type than at the beginning; equally many, if no transfer can burn.  Partial: mixing transfers must have at
least two outputs and no more outputs than inputs, see `C104_money_from_nothing_violated`. -/
theorem C104_supply_partial [Fintype S.F] (hO : 2 ^ 192 ≤ ScalarRepr.order S.F)
    (hEnc : ∀ g, E.decompress (E.compress g) = some g) (hB : Batching E) (X : Extractors S) (hX : X.Sound E)
    (L L' : List (BlindAssetRecord S × Holding S)) (ss : List (List (Holding S) × XfrBody S)) (h : Run E X L ss L')
    (hL : ∀ e ∈ L, Holds E e.1 e.2) (hshape : ∀ s ∈ ss, MixShape s.2) :
    (∃ s ∈ ss, Broken E X s.1 s.2) ∨
      (∀ e ∈ L', Holds E e.1 e.2) ∧ ∀ t, held t (L'.map Prod.snd) ≤ held t (L.map Prod.snd) ∧
        ((∀ s ∈ ss, Exact s.2) → held t (L'.map Prod.snd) = held t (L.map Prod.snd)) := by
  induction h with
  | nil => exact .inr ⟨hL, fun t => ⟨le_refl _, fun _ => rfl⟩⟩
  | @step l' ins rest ss n notes pols hr hacc hn hli hlo hins hin ih =>
    rcases ih (fun s hs => hshape s (by simp [hs])) with ⟨s, hs, hb⟩ | ⟨h1, h2⟩
    · exact .inl ⟨s, by simp [hs], hb⟩
    have hI : List.Forall₂ (Holds E) n.body.inputs (ins.map Prod.snd) := by
      rw [← hins, List.forall₂_map_left_iff, List.forall₂_map_right_iff, List.forall₂_same]
      exact fun e he => h1 e (hin.subset (by simp [he]))
    rcases body_step E hO hEnc X hX n.body (bodyOk_of_accepted E hB notes pols hacc n hn) _ hI
      (hshape (ins.map Prod.snd, n.body) (by simp)) hli hlo with hb | ⟨h3, h4⟩
    · exact .inl ⟨(ins.map Prod.snd, n.body), by simp, hb⟩
    right
    constructor
    · intro e he
      rcases List.mem_append.mp he with he | he
      · exact List.forall₂_iff_zip.mp h3 |>.2 he
      · exact h1 e (hin.subset (by simp [he]))
    · intro t
      have e1 : held t (l'.map Prod.snd) = held t (ins.map Prod.snd) + held t (rest.map Prod.snd) := by
        rw [← held_append, ← List.map_append]
        unfold held
        exact (((hin.map Prod.snd).map _).sum_eq).symm
      have e2 : (n.body.outputs.zip (outHoldings E X n.body)).map Prod.snd = outHoldings E X n.body := by
        refine List.map_snd_zip ?_
        unfold outHoldings
        rw [holdings_length]
      rw [List.map_append, held_append, e2]
      have e3 := h2 t
      have e4 := h4 t
      rw [e1] at e3
      refine ⟨by omega, fun hx => ?_⟩
      have x1 := e3.2 fun s hs => hx s (by simp [hs])
      have x2 := e4.2 (hx (ins.map Prod.snd, n.body) (by simp))
      omega

/-! ### The violation -/

namespace Spec

/-- The prover of the mixing proof system works for everyone who has values that meet the constraints, honest or not
(completeness of the Bulletproofs R1CS prover). -/
def MixProver (E : Ext S) : Prop :=
  ∀ (ins outs : List ((S.F × S.F) × (S.F × S.F))) (s : List S.F) (g : Nat) (st : R1cs.St S.F),
    R1cs.mix (MixWitness.pairs ins) none (MixWitness.pairs outs) none (R1cs.verifierWith s) = .ok (g, st) →
    (∀ ch, R1cs.Satisfied st ch) →
    ∃ pf, E.batchMix [(
      ins.map (fun o => (E.compress (o.1.1 • E.B + o.1.2 • E.Bb), E.compress (o.2.1 • E.B + o.2.2 • E.Bb))),
      outs.map (fun o => (E.compress (o.1.1 • E.B + o.1.2 • E.Bb), E.compress (o.2.1 • E.B + o.2.2 • E.Bb))), pf)] = true

end Spec

omit [DecidableEq S.EK] in
/-- C104 is violated by mixing transfers with one input: whatever the input `i` is worth, for every non-empty list of outputs,
of any amounts and any types, there is a mixing proof with which the transfer passes all checks on amounts and types. -/
theorem C104_money_from_nothing_violated (hO : 2 ^ 64 ≤ ScalarRepr.order S.F) (hEnc : Encoding E) (hB : Batching E) (hP : MixProver E)
    (i : OpenAssetRecord S) (outs : List (OpenAssetRecord S)) (hi : WellFormed E i) (ho : ∀ o ∈ outs, WellFormed E o)
    (hne : outs ≠ []) :
    ∃ pf, ∀ b : XfrBody S, b.inputs = [i.bar] → b.outputs = outs.map (·.bar) → b.amountProof = .assetMix pf →
      E.batchAssetRecords [b] = some () := by
  have hlt : ∀ p ∈ outs.map (fun o => (o.amount.toNat, E.asScalar o.assetType)), p.1 < 2 ^ 64 := by
    intro p hp
    obtain ⟨o, _, rfl⟩ := List.mem_map.mp hp
    exact o.amount.toNat_lt
  obtain ⟨s, g, st, hrun, hsat⟩ := R1cs.C26_single_input_unchecked ((i.amount.toNat : S.F), E.asScalar i.assetType)
    (outs.map fun o => (o.amount.toNat, E.asScalar o.assetType)) (by simpa using hne) hlt
    (fun p hp => lt_of_lt_of_le (hlt p hp) hO)
  let f : OpenAssetRecord S → (S.F × S.F) × (S.F × S.F) := fun o =>
    (((E.mixInput o).1.toNat, (E.mixInput o).2.2.1), ((E.mixInput o).2.1, (E.mixInput o).2.2.2))
  obtain ⟨pf, hpf⟩ := hP ([i].map f) (outs.map f) s g st (by
    have e1 : MixWitness.pairs ([i].map f) = [((i.amount.toNat : S.F), E.asScalar i.assetType)] := rfl
    have e2 : MixWitness.pairs (outs.map f) = R1cs.vals (outs.map fun o => (o.amount.toNat, E.asScalar o.assetType)) := by
      simp only [MixWitness.pairs, R1cs.vals, List.map_map]
      rfl
    rw [e1, e2]; exact hrun) hsat
  refine ⟨pf, fun b h1 h2 h3 => ?_⟩
  have p1 := processBars_of_wf E hEnc [i] (by simpa using hi)
  have p2 := processBars_of_wf E hEnc outs ho
  rw [batchAssetRecords_iff E hB]
  intro b' hb'
  rw [List.mem_singleton.mp hb']
  unfold BodyOk
  rw [h3, h1, h2]
  unfold Ext.batchAssetMix
  rw [show [i.bar] = [i].map (·.bar) from rfl]
  simp only [List.mapM_cons, List.mapM_nil, p1, p2, Option.bind_eq_bind, Option.bind_some, pure]
  rw [List.map_map, List.map_map] at hpf ⊢
  exact if_pos hpf

end

end Verif.Xfr
