import Mathlib.Tactic.Module
import Mathlib.Tactic.Abel
import Mathlib.Algebra.CharP.Basic
import Verif.Xfr.Props

/-!
Property C16: what an accepted proof about hidden amounts says about the values inside the commitments.
-/

namespace Verif.Xfr

open Spec

/-! ### Specification -/

namespace Spec

variable {S : Types} [Field S.F] [AddCommGroup S.G] [Module S.F S.G] (E : Ext S)

/-- opening of a pair of limb commitments -/
structure Opening (S : Types) where
  lo : Nat
  hi : Nat
  rlo : S.F
  rhi : S.F

/-- the amount an opening stands for -/
def Opening.value (o : Opening S) : Nat := o.lo + 2 ^ 32 * o.hi

/-- `o` opens the amount field `a`: limbs below `2^32`, the commitments of a hidden amount decompress to
`lo•B + rlo•Bb`, `hi•B + rhi•Bb`; a public amount opens to itself without blinding. -/
def Opens (a : XfrAmount S) (o : Opening S) : Prop :=
  o.lo < 2 ^ 32 ∧ o.hi < 2 ^ 32 ∧
    match a with
    | .conf lo hi =>
      E.decompress lo = some ((o.lo : S.F) • E.B + o.rlo • E.Bb) ∧
      E.decompress hi = some ((o.hi : S.F) • E.B + o.rhi • E.Bb)
    | .plain v => o.value = v.toNat ∧ o.rlo = 0 ∧ o.rhi = 0

/-- total value of a list of openings -/
def total (l : List (Opening S)) : Nat := (l.map Opening.value).sum

/-- total blinding of a list of openings, as it enters the recombined commitment -/
def blind (l : List (Opening S)) : S.F := (l.map (fun o => o.rlo + 2 ^ 32 * o.rhi)).sum

/-- natural numbers below `2^192` are different scalars -/
def CastInj (F : Type) [Field F] : Prop := ∀ m n : Nat, m < 2 ^ 192 → n < 2 ^ 192 → (m : F) = (n : F) → m = n

theorem castInj_of_charP (F : Type) [Field F] (p : Nat) [CharP F p] (hp : 2 ^ 192 ≤ p) : CastInj F := by
  intro m n hm hn h
  have := (CharP.natCast_eq_natCast F p).mp h
  rwa [Nat.ModEq, Nat.mod_eq_of_lt (by omega), Nat.mod_eq_of_lt (by omega)] at this

theorem castInj_rat : CastInj ℚ := fun _ _ _ _ h => Nat.cast_injective h

end Spec

variable {S : Types} [Field S.F] [AddCommGroup S.G] [Module S.F S.G] [DecidableEq S.CG]
  [DecidableEq S.AT] [DecidableEq S.EK] (E : Ext S)

/-! ### Lemmas -/

theorem splitU64_toNat (a : UInt64) :
    (splitU64 a).1.toNat = a.toNat % 2 ^ 32 ∧ (splitU64 a).2.toNat = a.toNat / 2 ^ 32 := by
  unfold splitU64
  constructor
  · simp only [UInt64.toNat_toUInt32, UInt64.toNat_and]
    have : (0xFFFFFFFF : UInt64).toNat = 2 ^ 32 - 1 := rfl
    rw [this, Nat.and_two_pow_sub_one_eq_mod]
    simp
  · simp only [UInt64.toNat_toUInt32, UInt64.toNat_shiftRight]
    have : (32 : UInt64).toNat % 64 = 32 := rfl
    rw [this, Nat.shiftRight_eq_div_pow]
    have := a.toNat_lt
    omega

omit [DecidableEq S.CG] [DecidableEq S.AT] [DecidableEq S.EK] in
theorem amountComs_of_opens (a : XfrAmount S) (o : Opening S) (h : Opens E a o) :
    E.amountComs a = some ((o.lo : S.F) • E.B + o.rlo • E.Bb, (o.hi : S.F) • E.B + o.rhi • E.Bb) := by
  obtain ⟨h1, h2, h3⟩ := h
  cases a with
  | conf lo hi =>
    simp only at h3
    simp [Ext.amountComs, h3.1, h3.2]
  | plain v =>
    obtain ⟨hv, e1, e2⟩ := h3
    obtain ⟨s1, s2⟩ := splitU64_toNat v
    unfold Opening.value at hv
    have hl : o.lo = (splitU64 v).1.toNat := by rw [s1]; omega
    have hh : o.hi = (splitU64 v).2.toNat := by rw [s2]; omega
    simp [Ext.amountComs, Ext.commit, limbs, e1, e2, hl, hh]

omit [DecidableEq S.CG] [DecidableEq S.AT] [DecidableEq S.EK] in
theorem foldlM_coms (rs : List (BlindAssetRecord S)) (os : List (Opening S))
    (h : List.Forall₂ (fun r o => Opens E r.amount o) rs os) (acc : S.G × S.G) :
    rs.foldlM (fun acc r => do
      let c ← E.amountComs r.amount
      pure (acc.1 + c.1, acc.2 + c.2)) acc =
    some (acc.1 + (((os.map (·.lo)).sum : Nat) : S.F) • E.B + (os.map (·.rlo)).sum • E.Bb,
      acc.2 + (((os.map (·.hi)).sum : Nat) : S.F) • E.B + (os.map (·.rhi)).sum • E.Bb) := by
  induction h generalizing acc with
  | nil => simp
  | @cons r o rs os h1 _ ih =>
    rw [List.foldlM_cons, amountComs_of_opens E _ _ h1]
    simp only [Option.bind_eq_bind, Option.bind_some, pure]
    have := ih (acc.1 + ((o.lo : S.F) • E.B + o.rlo • E.Bb), acc.2 + ((o.hi : S.F) • E.B + o.rhi • E.Bb))
    simp only [Option.bind_eq_bind, pure] at this
    rw [this]
    simp only [List.map_cons, List.sum_cons, Nat.cast_add, Option.some.injEq, Prod.mk.injEq]
    constructor <;> module

omit [DecidableEq S.CG] [DecidableEq S.AT] [DecidableEq S.EK] in
theorem totalComs_of_opens (rs : List (BlindAssetRecord S)) (os : List (Opening S))
    (h : List.Forall₂ (fun r o => Opens E r.amount o) rs os) :
    E.totalComs rs =
      some ((((os.map (·.lo)).sum : Nat) : S.F) • E.B + (os.map (·.rlo)).sum • E.Bb,
        (((os.map (·.hi)).sum : Nat) : S.F) • E.B + (os.map (·.rhi)).sum • E.Bb) := by
  unfold Ext.totalComs
  rw [foldlM_coms E rs os h]
  simp

omit [Field S.F] [AddCommGroup S.G] [Module S.F S.G] [DecidableEq S.CG] [DecidableEq S.AT]
  [DecidableEq S.EK] in
theorem total_limbs (os : List (Opening S)) :
    total os = (os.map (·.lo)).sum + 2 ^ 32 * (os.map (·.hi)).sum := by
  unfold total
  induction os with
  | nil => rfl
  | cons o os ih =>
    simp only [List.map_cons, List.sum_cons, ih, Opening.value]; ring

omit [AddCommGroup S.G] [Module S.F S.G] [DecidableEq S.CG] [DecidableEq S.AT] [DecidableEq S.EK] in
theorem blind_limbs (os : List (Opening S)) :
    blind os = (os.map (·.rlo)).sum + 2 ^ 32 * (os.map (·.rhi)).sum := by
  unfold blind
  induction os with
  | nil => simp
  | cons o os ih =>
    simp only [List.map_cons, List.sum_cons, ih]; ring

omit [Field S.F] [AddCommGroup S.G] [Module S.F S.G] [DecidableEq S.CG] [DecidableEq S.AT]
  [DecidableEq S.EK] in
theorem total_lt (os : List (Opening S)) (n : Nat) (hn : os.length ≤ n)
    (h : ∀ o ∈ os, o.lo < 2 ^ 32 ∧ o.hi < 2 ^ 32) : total os ≤ n * (2 ^ 64 - 1) := by
  have : total os ≤ os.length * (2 ^ 64 - 1) := by
    clear hn
    unfold total
    induction os with
    | nil => simp
    | cons o os ih =>
      have h1 := h o (by simp)
      have h2 := ih (fun o ho => h o (by simp [ho]))
      simp only [List.map_cons, List.sum_cons, List.length_cons, Opening.value]
      have : o.lo + 2 ^ 32 * o.hi ≤ 2 ^ 64 - 1 := by omega
      rw [Nat.add_mul]; omega
  exact this.trans (Nat.mul_le_mul_right _ hn)

/-! ### C16 -/

omit [DecidableEq S.AT] [DecidableEq S.EK] in
/-- C16, coverage: when the verifier accepts the shape of the proof, the commitments it hands to the range
check are, in order, the two limbs of every output, the two limbs of the difference, and padding. -/
theorem C16_range_check_covers_outputs (ins outs : List (BlindAssetRecord S)) (p : RangeProof S)
    (coms : List S.CG) (h : E.extractValueCommitments ins outs p = some coms) :
    ∃ outComs : List (S.G × S.G), List.Forall₂ (fun r c => E.amountComs r.amount = some c) outs outComs ∧
      ∃ k, coms = outComs.flatMap (fun c => [E.compress c.1, E.compress c.2]) ++
        [p.diffLow, p.diffHigh] ++ List.replicate k E.identityC := by
  unfold Ext.extractValueCommitments at h
  obtain ⟨tin, _, h⟩ := Option.bind_eq_some_iff.mp h
  obtain ⟨oc, hoc, h⟩ := Option.bind_eq_some_iff.mp h
  obtain ⟨tout, _, h⟩ := Option.bind_eq_some_iff.mp h
  obtain ⟨dl, _, h⟩ := Option.bind_eq_some_iff.mp h
  obtain ⟨dh, _, h⟩ := Option.bind_eq_some_iff.mp h
  simp only at h
  split at h
  · simp at h
  · simp only [pure, Option.some.injEq] at h
    exact ⟨oc, (mapM_some_forall2 _ _ _).mp hoc, _, h.symm⟩

omit [DecidableEq S.AT] [DecidableEq S.EK] in
/-- C16, the main statement.  Let the verifier accept the recombined difference and let `oi`, `oo`, `d` be any
openings of the inputs, the outputs and the difference with limbs below `2^32` (for outputs and difference
that is what the range proof guarantees).  Then the value of the inputs is the value of the outputs plus the
difference — in particular the outputs are never worth more than the inputs — or the openings themselves give
the non-trivial relation `a•B + b•Bb = 0` between the two Pedersen generators, with `a`, `b` explicit. -/
theorem C16_no_inflation (hF : CastInj S.F) (hc : ∀ x y, E.compress x = E.compress y → x = y)
    (ins outs : List (BlindAssetRecord S)) (p : RangeProof S) (coms : List S.CG)
    (h : E.extractValueCommitments ins outs p = some coms)
    (oi oo : List (Opening S)) (d : Opening S)
    (hi : List.Forall₂ (fun r o => Opens E r.amount o) ins oi)
    (ho : List.Forall₂ (fun r o => Opens E r.amount o) outs oo)
    (hd : Opens E (.conf p.diffLow p.diffHigh) d)
    (hli : ins.length ≤ 2 ^ 64) (hlo : outs.length ≤ 2 ^ 64) :
    total oi = total oo + d.value ∨
      ((total oi : S.F) - (total oo + d.value : Nat) ≠ 0 ∧
        ((total oi : S.F) - (total oo + d.value : Nat)) • E.B + (blind oi - blind oo - blind [d]) • E.Bb = 0) := by
  unfold Ext.extractValueCommitments at h
  rw [totalComs_of_opens E ins oi hi, totalComs_of_opens E outs oo ho] at h
  simp only [Option.bind_eq_bind, Option.bind_some] at h
  obtain ⟨oc, hoc, h⟩ := Option.bind_eq_some_iff.mp h
  obtain ⟨d1, d2, d3, d4⟩ := hd
  rw [d3, d4] at h
  simp only [Option.bind_some] at h
  split at h
  · simp at h
  rename_i hne
  have heq := hc _ _ (not_not.mp hne)
  have hrel : ((total oi : S.F) - (total oo + d.value : Nat)) • E.B + (blind oi - blind oo - blind [d]) • E.Bb
      = 0 := by
    rw [total_limbs, total_limbs, blind_limbs, blind_limbs]
    simp only [blind, List.map_cons, List.map_nil, List.sum_cons, List.sum_nil, Opening.value]
    have e32 : ((POW_2_32 : Nat) : S.F) = (2 : S.F) ^ 32 := by
      have : POW_2_32 = 2 ^ 32 := rfl
      rw [this]; norm_num
    rw [e32] at heq
    have h0 := sub_eq_zero.mpr heq
    push_cast
    push_cast at h0
    rw [← h0]
    module
  by_cases hz : total oi = total oo + d.value
  · exact .inl hz
  · refine .inr ⟨fun h0 => hz ?_, hrel⟩
    have hbi : ∀ o ∈ oi, o.lo < 2 ^ 32 ∧ o.hi < 2 ^ 32 := by
      clear * - hi
      induction hi with
      | nil => simp
      | cons h1 _ ih =>
        intro o ho
        rcases List.mem_cons.mp ho with rfl | ho
        · exact ⟨h1.1, h1.2.1⟩
        · exact ih o ho
    have hbo : ∀ o ∈ oo, o.lo < 2 ^ 32 ∧ o.hi < 2 ^ 32 := by
      clear * - ho
      induction ho with
      | nil => simp
      | cons h1 _ ih =>
        intro o ho
        rcases List.mem_cons.mp ho with rfl | ho
        · exact ⟨h1.1, h1.2.1⟩
        · exact ih o ho
    have b1 := total_lt oi (2 ^ 64) (hi.length_eq ▸ hli) hbi
    have b2 := total_lt oo (2 ^ 64) (ho.length_eq ▸ hlo) hbo
    have b3 : d.value < 2 ^ 64 := by unfold Opening.value; omega
    exact hF _ _ (by omega) (by omega) (sub_eq_zero.mp h0)

/-- C16, corollary in the form used by a ledger: with independent generators the outputs are never worth more
than the inputs. -/
theorem C16_outputs_at_most_inputs (hF : CastInj S.F) (hc : ∀ x y, E.compress x = E.compress y → x = y)
    (hind : ∀ a b : S.F, a • E.B + b • E.Bb = 0 → a = 0)
    (ins outs : List (BlindAssetRecord S)) (p : RangeProof S) (coms : List S.CG)
    (h : E.extractValueCommitments ins outs p = some coms)
    (oi oo : List (Opening S)) (d : Opening S)
    (hi : List.Forall₂ (fun r o => Opens E r.amount o) ins oi)
    (ho : List.Forall₂ (fun r o => Opens E r.amount o) outs oo)
    (hd : Opens E (.conf p.diffLow p.diffHigh) d)
    (hli : ins.length ≤ 2 ^ 64) (hlo : outs.length ≤ 2 ^ 64) : total oo ≤ total oi := by
  rcases C16_no_inflation E hF hc ins outs p coms h oi oo d hi ho hd hli hlo with h1 | ⟨h1, h2⟩
  · omega
  · exact absurd (hind _ _ h2) h1

end Verif.Xfr
