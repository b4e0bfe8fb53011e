import Mathlib.Data.ZMod.Basic
import Verif.SimFr.Basic

/-!
C61 for the native code: limb decomposition, the operations on limbs, and `enforce_zero`.
-/

namespace Verif.SimFr

open Verif.Plonk Finset Spec

variable {F : Type} [Field F] [ScalarRepr F]

/-- how many sub pads have been added -/
def Red.pads : Red → Nat
  | .others n => n / 3
  | _ => 0

/-- A consistent simulated element: the limbs are the images of integers whose weighted sum is `val`; the limbs and
the value are bounded in terms of the recorded number of additions. -/
def Sim.Ok (P : Params) (a : Sim F) : Prop :=
  ∃ L : Nat → Nat, a.limbs = (List.range P.limbs).map (fun i => (L i : F)) ∧ value P.bits P.limbs L = a.val ∧
    (∀ i < P.limbs, L i < 2 ^ P.cap i + a.adds.pads * P.padAt i) ∧ a.val < (a.adds.num + 1) * P.r

/-- the same for intermediate products -/
def SimMul.Ok (P : Params) (a : SimMul F) : Prop :=
  ∃ L : Nat → Nat, a.limbs = (List.range P.limbsMul).map (fun i => (L i : F)) ∧ value P.bits P.limbsMul L = a.val ∧
    (∀ i < P.limbsMul, L i ≤ a.prod * (P.limbs * 2 ^ (2 * P.bits))) ∧ a.val ≤ a.prod * P.r ^ 2

theorem cast_inj {a b : Nat} (ha : a < ScalarRepr.order F) (hb : b < ScalarRepr.order F) (h : (a : F) = (b : F)) :
    a = b := by
  rw [← ScalarRepr.val_cast (F := F) a ha, h, ScalarRepr.val_cast b hb]

theorem limb_bound {P : Params} (hP : P.Ok) (x : Red) (i : Nat) (hi : i < P.limbs) (l : Nat)
    (h : l < 2 ^ P.cap i + x.pads * P.padAt i) : l < (x.num + 1) * 2 ^ P.bits := by
  have h1 : 2 ^ P.cap i ≤ 2 ^ P.bits := Nat.pow_le_pow_right (by norm_num) (hP.cap_le i)
  have h2 := hP.padHi i hi
  have h3 : 3 * x.pads ≤ x.num := by cases x <;> simp [Red.pads, Red.num] <;> omega
  have h4 : x.pads * P.padAt i ≤ x.num * 2 ^ P.bits :=
    calc x.pads * P.padAt i ≤ x.pads * (3 * 2 ^ P.bits) := Nat.mul_le_mul_left _ h2
      _ = 3 * x.pads * 2 ^ P.bits := by ring
      _ ≤ _ := Nat.mul_le_mul_right _ h3
  rw [Nat.add_mul]
  omega

/-! ### Decomposition -/

/-- C61: an integer that fits is decomposed into limbs of `BIT_PER_LIMB` bits, and recomposed; an integer that does not
fit makes the recomposition panic. -/
theorem C61_round_trip (P : Params) (hF : 2 ^ P.bits ≤ ScalarRepr.order F) (v : Nat) :
    (ofBig P v : Sim F).toBig P = if v < 2 ^ (P.bits * P.limbs) then some v else none := by
  obtain ⟨L, h1, h2, h3⟩ := splitLimbs_spec P.bits P.limbs v
  have hlim : (ofBig P v : Sim F).limbs = (List.range P.limbs).map (fun i => (L i : F)) := by
    unfold ofBig
    rw [h1, List.map_map]
    rfl
  have hj : joinLimbs (2 ^ P.bits) (ofBig P v : Sim F).limbs = v % 2 ^ (P.bits * P.limbs) := by
    rw [hlim, joinLimbs_eq, ← h3]
    refine value_congr _ _ _ _ (fun i hi => ?_)
    refine ScalarRepr.val_cast _ (lt_of_lt_of_le ?_ hF)
    rw [h2 i hi]
    exact Nat.mod_lt _ (by positivity)
  unfold Sim.toBig
  rw [hj]
  have hv : (ofBig P v : Sim F).val = v := rfl
  simp only [hv]
  by_cases h : v < 2 ^ (P.bits * P.limbs)
  · rw [if_pos h, Nat.mod_eq_of_lt h]
    simp
  · rw [if_neg h]
    have : ¬ v % 2 ^ (P.bits * P.limbs) = v := by
      have := Nat.mod_lt v (show 0 < 2 ^ (P.bits * P.limbs) by positivity)
      omega
    simp [guard, this]

/-- C61: elements of the simulated field are represented consistently. -/
theorem C61_from (P : Params) (hP : P.Ok) (v : Nat) (hv : v < P.r) :
    (ofBig P v : Sim F).Ok P ∧ (ofBig P v : Sim F).val = v ∧ (ofBig P v : Sim F).adds = .strict := by
  refine ⟨?_, rfl, rfl⟩
  obtain ⟨L, h1, h2, h3⟩ := splitLimbs_spec P.bits P.limbs v
  have hpos := hP.pos
  have hlt : v < 2 ^ (P.bits * (P.limbs - 1) + P.top) := hv.trans hP.rLo
  have htop := hP.top
  refine ⟨L, ?_, ?_, ?_, ?_⟩
  · unfold ofBig
    rw [h1, List.map_map]
    rfl
  · rw [h3]
    refine Nat.mod_eq_of_lt (lt_of_lt_of_le hlt (Nat.pow_le_pow_right (by norm_num) ?_))
    obtain ⟨m, hm⟩ : ∃ m, P.limbs = m + 1 := ⟨P.limbs - 1, by omega⟩
    rw [hm, Nat.mul_succ]
    simp only [Nat.succ_eq_add_one, Nat.add_sub_cancel]
    omega
  · intro i hi
    show L i < 2 ^ P.cap i + 0 * P.padAt i
    rw [zero_mul, add_zero, h2 i hi]
    unfold Params.cap
    split
    · rename_i h
      rw [h]
      refine lt_of_le_of_lt (Nat.mod_le _ _) ?_
      rw [Nat.div_lt_iff_lt_mul (by positivity), ← pow_add]
      rwa [Nat.add_comm P.top]
    · exact Nat.mod_lt _ (by positivity)
  · show v < (0 + 1) * P.r
    omega

/-- C61: the limbs of a consistent element recompose to its value. -/
theorem C61_value (P : Params) (hP : P.Ok) (a : Sim F) (ha : a.Ok P)
    (hF : (a.adds.num + 1) * 2 ^ P.bits ≤ ScalarRepr.order F) : a.toBig P = some a.val := by
  obtain ⟨L, h1, h2, h3, _⟩ := ha
  have hj : joinLimbs (2 ^ P.bits) a.limbs = a.val := by
    rw [h1, joinLimbs_eq, ← h2]
    refine value_congr _ _ _ _ (fun i hi => ScalarRepr.val_cast _ ?_)
    exact lt_of_lt_of_le (limb_bound hP _ i hi _ (h3 i hi)) hF
  unfold Sim.toBig
  simp [hj]

/-- C61: `is_zero` of a consistent element tells whether its value is divisible by the modulus. -/
theorem C61_is_zero (P : Params) (hP : P.Ok) (a : Sim F) (ha : a.Ok P)
    (hF : (a.adds.num + 1) * 2 ^ P.bits ≤ ScalarRepr.order F) : a.isZero P = some (decide (P.r ∣ a.val)) := by
  unfold Sim.isZero
  rw [C61_value P hP a ha hF]
  simp only [Option.bind_eq_bind, Option.bind_some, Option.pure_def, Option.some.injEq]
  rw [Bool.eq_iff_iff]
  simp [Nat.dvd_iff_mod_eq_zero]

/-! ### Operations -/

omit [ScalarRepr F] in
theorem Sim.Ok.get {P : Params} {a : Sim F} {L : Nat → Nat}
    (h : a.limbs = (List.range P.limbs).map (fun i => (L i : F))) {i : Nat} (hi : i < P.limbs) :
    a.limbs[i]? = some (L i : F) := by
  rw [h, range_map_get _ _ _ hi]

omit [ScalarRepr F] in
theorem sub_limbs {P : Params} (hP : P.Ok) {a b c : Sim F} (hb : b.adds = .strict ∨ b.adds = .one)
    (h : a.sub P b = some c) (A B : Nat → Nat) (hA : a.limbs = (List.range P.limbs).map (fun i => (A i : F)))
    (hB : b.limbs = (List.range P.limbs).map (fun i => (B i : F))) (hlt : ∀ i < P.limbs, B i < 2 ^ P.cap i) :
    c.limbs = (List.range P.limbs).map (fun i => ((A i + P.padAt i - B i : Nat) : F)) := by
  unfold Sim.sub at h
  rw [mapM_some (List.range P.limbs) _ (fun i => ((A i + P.padAt i - B i : Nat) : F))] at h
  · simp only [guard, if_pos hb, Option.pure_def, Option.bind_eq_bind, Option.bind_some] at h
    split at h
    · simp only [Option.bind_some, Option.some.injEq] at h
      rw [← h]
    · simp [failure] at h
  · intro i hi
    rw [List.mem_range] at hi
    rw [Sim.Ok.get hA hi, hP.padAt_get hi, Sim.Ok.get hB hi]
    simp only [Option.bind_eq_bind, Option.bind_some, Option.pure_def, Option.some.injEq]
    have h1 := hlt i hi
    have h2 := hP.padLo i hi
    rw [Nat.cast_sub (by omega), Nat.cast_add]

omit [ScalarRepr F] in
/-- C61: subtraction of a consistent element that has not been subtracted from before computes the difference modulo
the modulus, and the result is consistent. -/
theorem C61_sub (P : Params) (hP : P.Ok) (a b : Sim F) (ha : a.Ok P) (hb : b.Ok P)
    (hs : b.adds = .strict ∨ b.adds = .one) :
    ∃ c, a.sub P b = some c ∧ c.Ok P ∧ c.adds = .others (a.adds.num + 3) ∧
      (c.val : ZMod P.r) = (a.val : ZMod P.r) - (b.val : ZMod P.r) := by
  obtain ⟨A, hA1, hA2, hA3, hA4⟩ := ha
  obtain ⟨B, hB1, hB2, hB3, hB4⟩ := hb
  have hnum : b.adds.num ≤ 1 ∧ b.adds.pads = 0 := by rcases hs with h | h <;> rw [h] <;> simp [Red.num, Red.pads]
  have hBlt : ∀ i < P.limbs, B i < 2 ^ P.cap i := by
    intro i hi
    have := hB3 i hi
    rwa [hnum.2, zero_mul, add_zero] at this
  have hbv : b.val < 2 * P.r := lt_of_lt_of_le hB4 (Nat.mul_le_mul_right _ (by omega))
  have hle : b.val ≤ a.val + P.pad := by have := hP.pad2; omega
  obtain ⟨c, hc⟩ : ∃ c, a.sub P b = some c := by
    unfold Sim.sub
    rw [mapM_some (List.range P.limbs) _ (fun i => (A i : F) + (P.padAt i : F) - (B i : F))]
    · exact ⟨_, by simp [guard, hs, hle]; rfl⟩
    · intro i hi
      rw [List.mem_range] at hi
      rw [Sim.Ok.get hA1 hi, hP.padAt_get hi, Sim.Ok.get hB1 hi]
      rfl
  have hcl := sub_limbs hP hs hc A B hA1 hB1 hBlt
  have hcv : c.val = a.val + P.pad - b.val ∧ c.adds = .others (a.adds.num + 3) := by
    have hc' := hc
    unfold Sim.sub at hc'
    rw [mapM_some (List.range P.limbs) _ (fun i => (A i : F) + (P.padAt i : F) - (B i : F))] at hc'
    · simp [guard, hs, hle] at hc'
      rw [← hc']
      exact ⟨rfl, rfl⟩
    · intro i hi
      rw [List.mem_range] at hi
      rw [Sim.Ok.get hA1 hi, hP.padAt_get hi, Sim.Ok.get hB1 hi]
      rfl
  refine ⟨c, hc, ⟨_, hcl, ?_, ?_, ?_⟩, hcv.2, ?_⟩
  · rw [hcv.1, ← hA2, ← hB2, ← hP.padVal, ← value_add]
    rw [eq_comm, Nat.sub_eq_iff_eq_add, ← value_add]
    · refine value_congr _ _ _ _ (fun i hi => ?_)
      have h1 := hBlt i hi
      have h2 := hP.padLo i hi
      omega
    · rw [value_add, hA2, hB2, hP.padVal]; exact hle
  · intro i hi
    have h1 := hA3 i hi
    rw [hcv.2]
    have e : Red.pads (.others (a.adds.num + 3)) = a.adds.num / 3 + 1 := by simp [Red.pads]
    rw [e]
    have h3 : a.adds.pads ≤ a.adds.num / 3 := by cases a.adds <;> simp [Red.pads, Red.num]
    have h4 : a.adds.pads * P.padAt i ≤ a.adds.num / 3 * P.padAt i := Nat.mul_le_mul_right _ h3
    rw [Nat.add_mul]
    omega
  · rw [hcv.1, hcv.2]
    have e : Red.num (.others (a.adds.num + 3)) = a.adds.num + 3 := rfl
    rw [e]
    have := hP.pad3
    have e2 : (a.adds.num + 3 + 1) * P.r = (a.adds.num + 1) * P.r + 3 * P.r := by ring
    rw [e2]
    omega
  · rw [hcv.1, Nat.cast_sub hle, Nat.cast_add, (ZMod.natCast_eq_zero_iff _ _).mpr hP.padDvd, add_zero]

omit [ScalarRepr F] in
/-- C61: multiplication of consistent elements. -/
theorem C61_mul (P : Params) (hP : P.Ok) (a b : Sim F) (ha : a.Ok P) (hb : b.Ok P) :
    ∃ c, a.mul P b = some c ∧ c.Ok P ∧ c.prod = (a.adds.num + 1) * (b.adds.num + 1) ∧ c.val = a.val * b.val := by
  obtain ⟨A, hA1, hA2, hA3, hA4⟩ := ha
  obtain ⟨B, hB1, hB2, hB3, hB4⟩ := hb
  have e : a.mul P b = some
      (SimMul.mk ((List.range P.limbsMul).map (conv P.limbs (fun i => (A i : F)) (fun i => (B i : F))))
        (a.val * b.val) ((a.adds.num + 1) * (b.adds.num + 1))) := by
    unfold Sim.mul
    rw [hA1, hB1, schoolbook_eq _ _ _ _ (le_of_eq hP.mul.symm)]
    rfl
  refine ⟨_, e, ⟨conv P.limbs A B, ?_, ?_, ?_, ?_⟩, rfl, rfl⟩
  · exact List.map_congr_left (fun i _ => (conv_cast _ _ _ _).symm)
  · rw [value_conv _ _ _ _ _ (le_of_eq hP.mul.symm), hA2, hB2]
  · intro i _
    refine (conv_le P.limbs _ _ A B i (fun i hi => (limb_bound hP _ i hi _ (hA3 i hi)).le)
      (fun i hi => (limb_bound hP _ i hi _ (hB3 i hi)).le)).trans (le_of_eq ?_)
    rw [Nat.two_mul, pow_add]
    ring
  · show a.val * b.val ≤ (a.adds.num + 1) * (b.adds.num + 1) * P.r ^ 2
    refine (Nat.mul_le_mul hA4.le hB4.le).trans (le_of_eq (by ring))

omit [ScalarRepr F] in
theorem SimMul.Ok.get {P : Params} {a : SimMul F} {L : Nat → Nat}
    (h : a.limbs = (List.range P.limbsMul).map (fun i => (L i : F))) {i : Nat} (hi : i < P.limbsMul) :
    a.limbs[i]? = some (L i : F) := by
  rw [h, range_map_get _ _ _ hi]

omit [ScalarRepr F] in
theorem add_eq {P : Params} {a b : SimMul F} (A B : Nat → F)
    (hA : a.limbs = (List.range P.limbsMul).map A) (hB : b.limbs = (List.range P.limbsMul).map B) :
    a.add P b = some
      (SimMul.mk ((List.range P.limbsMul).map (fun i => A i + B i)) (a.val + b.val) (a.prod + b.prod)) := by
  unfold SimMul.add
  rw [hA, update_loop P.limbsMul P.limbsMul (le_refl _) A _ (fun i x => x + B i)]
  · simp only [Option.bind_eq_bind, Option.bind_some, Option.pure_def, Option.some.injEq, SimMul.mk.injEq, and_true]
    exact List.map_congr_left (fun i hi => by rw [if_pos (List.mem_range.mp hi)])
  · intro f' i hi
    rw [range_map_get _ _ _ hi, hB, range_map_get _ _ _ hi]
    rfl

omit [ScalarRepr F] in
/-- C61: addition of consistent products. -/
theorem C61_add (P : Params) (a b : SimMul F) (ha : a.Ok P) (hb : b.Ok P) :
    ∃ c, a.add P b = some c ∧ c.Ok P ∧ c.prod = a.prod + b.prod ∧ c.val = a.val + b.val := by
  obtain ⟨A, hA1, hA2, hA3, hA4⟩ := ha
  obtain ⟨B, hB1, hB2, hB3, hB4⟩ := hb
  refine ⟨_, add_eq _ _ hA1 hB1, ⟨fun i => A i + B i, ?_, ?_, ?_, ?_⟩, rfl, rfl⟩
  · exact List.map_congr_left (fun i _ => by simp)
  · rw [value_add, hA2, hB2]
  · intro i hi
    show _ ≤ (a.prod + b.prod) * _
    rw [Nat.add_mul]
    exact Nat.add_le_add (hA3 i hi) (hB3 i hi)
  · show a.val + b.val ≤ (a.prod + b.prod) * _
    rw [Nat.add_mul]
    exact Nat.add_le_add hA4 hB4

omit [ScalarRepr F] in
theorem mulsub_eq {P : Params} (hP : P.Ok) {a : SimMul F} {b : Sim F} (A B : Nat → F)
    (hA : a.limbs = (List.range P.limbsMul).map A) (hB : b.limbs = (List.range P.limbs).map B)
    (hs : b.adds.num ≤ 4) (hle : b.val ≤ a.val + P.pad + P.pad + P.pad + P.pad) :
    a.sub P b = some
      { limbs := (List.range P.limbsMul).map (fun i => if i < P.limbs then
          A i + (P.padAt i : F) + (P.padAt i : F) + (P.padAt i : F) + (P.padAt i : F) - B i else A i)
        val := a.val + P.pad + P.pad + P.pad + P.pad - b.val, prod := a.prod + 12 } := by
  have hm := hP.mul
  have hpos := hP.pos
  unfold SimMul.sub
  rw [hA, update_loop P.limbsMul P.limbs (by omega) A _
    (fun i x => x + (P.padAt i : F) + (P.padAt i : F) + (P.padAt i : F) + (P.padAt i : F) - B i)]
  · simp [guard, hs, hle]
  · intro f' i hi
    rw [range_map_get _ _ _ (by omega), hB, range_map_get _ _ _ hi, hP.padAt_get hi]
    rfl

omit [ScalarRepr F] in
/-- C61: subtraction of a consistent element, with at most four additions, from a consistent product. -/
theorem C61_mul_sub (P : Params) (hP : P.Ok) (a : SimMul F) (b : Sim F) (ha : a.Ok P) (hb : b.Ok P)
    (hs : b.adds.num ≤ 4) :
    ∃ c, a.sub P b = some c ∧ c.Ok P ∧ c.prod = a.prod + 12 ∧
      (c.val : ZMod P.r) = (a.val : ZMod P.r) - (b.val : ZMod P.r) := by
  obtain ⟨A, hA1, hA2, hA3, hA4⟩ := ha
  obtain ⟨B, hB1, hB2, hB3, hB4⟩ := hb
  have hm := hP.mul
  have hpos := hP.pos
  have hbv : b.val < 5 * P.r := lt_of_lt_of_le hB4 (Nat.mul_le_mul_right _ (by omega))
  have hle : b.val ≤ a.val + P.pad + P.pad + P.pad + P.pad := by have := hP.pad2; omega
  have hBlt : ∀ i < P.limbs, B i ≤ 4 * P.padAt i := by
    intro i hi
    have h1 := hB3 i hi
    have h2 := hP.padLo i hi
    have h3 : b.adds.pads ≤ 1 := by
      cases h : b.adds with
      | strict => simp [Red.pads]
      | one => simp [Red.pads]
      | others n => rw [h] at hs; simp only [Red.num] at hs; simp only [Red.pads]; omega
    have h4 : b.adds.pads * P.padAt i ≤ 1 * P.padAt i := Nat.mul_le_mul_right _ h3
    omega
  refine ⟨_, mulsub_eq hP _ _ hA1 hB1 hs hle,
    ⟨fun i => if i < P.limbs then A i + 4 * P.padAt i - B i else A i, ?_, ?_, ?_, ?_⟩, rfl, ?_⟩
  · refine List.map_congr_left (fun i _ => ?_)
    simp only
    split
    · rename_i hi
      have := hBlt i hi
      rw [Nat.cast_sub (by omega)]
      push_cast
      ring
    · rfl
  · show _ = a.val + P.pad + P.pad + P.pad + P.pad - b.val
    rw [eq_comm, Nat.sub_eq_iff_eq_add hle]
    have e1 : ∀ X : Nat → Nat, value P.bits P.limbsMul (fun i => if i < P.limbs then X i else 0) = value P.bits P.limbs X := by
      intro X
      rw [value_extend _ P.limbs _ _ (by omega) (fun i hi => if_neg (by omega))]
      exact value_congr _ _ _ _ (fun i hi => if_pos hi)
    rw [← hB2, ← e1 B, ← value_add, ← hA2]
    have e2 : P.pad + P.pad + P.pad + P.pad = value P.bits P.limbsMul (fun i => if i < P.limbs then 4 * P.padAt i else 0) := by
      rw [e1, value_smul, hP.padVal]; ring
    rw [show value P.bits P.limbsMul A + P.pad + P.pad + P.pad + P.pad
      = value P.bits P.limbsMul A + (P.pad + P.pad + P.pad + P.pad) by ring, e2, ← value_add]
    refine value_congr _ _ _ _ (fun i _ => ?_)
    by_cases hi : i < P.limbs
    · have := hBlt i hi
      simp only [if_pos hi]
      omega
    · simp only [if_neg hi]
  · intro i hi
    show _ ≤ (a.prod + 12) * _
    have h1 := hA3 i hi
    rw [Nat.add_mul]
    simp only
    split
    · rename_i hi'
      have h2 := hP.padHi i hi'
      have h3 : 2 ^ P.bits ≤ P.limbs * 2 ^ (2 * P.bits) := by
        calc 2 ^ P.bits ≤ 1 * 2 ^ (2 * P.bits) := by
              rw [one_mul]; exact Nat.pow_le_pow_right (by norm_num) (by omega)
          _ ≤ _ := Nat.mul_le_mul_right _ hpos
      omega
    · omega
  · show a.val + P.pad + P.pad + P.pad + P.pad - b.val ≤ (a.prod + 12) * P.r ^ 2
    have h1 := hP.pad3
    have h2 : P.r ≤ P.r ^ 2 := by
      have := hP.rPos
      nlinarith
    rw [Nat.add_mul]
    omega
  · show ((a.val + P.pad + P.pad + P.pad + P.pad - b.val : Nat) : ZMod P.r) = _
    rw [Nat.cast_sub hle]
    push_cast
    rw [(ZMod.natCast_eq_zero_iff _ _).mpr hP.padDvd]
    ring

/-! ### Zero test -/

/-- value of a list of groups (value, number of limbs) -/
def gval (b : Nat) : List (Nat × Nat) → Nat
  | [] => 0
  | (x, k) :: t => x + 2 ^ (b * k) * gval b t

/-- group `i` of limbs `L`, out of `m` limbs -/
def grp {R : Type} [CommSemiring R] (b m : Nat) (L : Nat → R) (i : Nat) : R :=
  if 2 * i + 1 < m then L (2 * i) + L (2 * i + 1) * ((2 ^ b : Nat) : R) else L (2 * i)

/-- number of limbs of group `i` -/
def grpSize (m i : Nat) : Nat := if 2 * i + 1 < m then 2 else 1

theorem gval_grp (b n : Nat) (hn : 1 ≤ n) (L : Nat → Nat) :
    gval b ((List.range n).map (fun i => (grp b (2 * n - 1) L i, grpSize (2 * n - 1) i))) = value b (2 * n - 1) L := by
  suffices H : ∀ c i, i + c = n →
      gval b ((List.range' i c).map (fun i => (grp b (2 * n - 1) L i, grpSize (2 * n - 1) i))) * 2 ^ (b * (2 * i))
        = ∑ j ∈ Ico (2 * i) (2 * n - 1), L j * 2 ^ (b * j) by
    have := H n 0 (by omega)
    rw [List.range_eq_range']
    simp only [Nat.mul_zero, pow_zero, Nat.mul_one] at this
    rw [this]
    unfold value
    rw [Finset.range_eq_Ico]
  intro c
  induction c with
  | zero =>
    intro i hi
    rw [Ico_eq_empty (by omega)]
    simp [gval]
  | succ c ih =>
    intro i hi
    have h1 := ih (i + 1) (by omega)
    rw [List.range'_succ, List.map_cons, gval]
    by_cases h : 2 * i + 1 < 2 * n - 1
    · rw [sum_eq_sum_Ico_succ_bot (by omega), sum_eq_sum_Ico_succ_bot (by omega)]
      rw [show 2 * i + 1 + 1 = 2 * (i + 1) by ring, ← h1]
      unfold grp grpSize
      rw [if_pos h, if_pos h]
      rw [show b * (2 * i + 1) = b + b * (2 * i) by ring, show b * (2 * (i + 1)) = b * 2 + b * (2 * i) by ring,
        pow_add, pow_add]
      push_cast
      ring
    · have hc : c = 0 := by omega
      subst hc
      rw [sum_eq_sum_Ico_succ_bot (by omega), Ico_eq_empty (by omega)]
      unfold grp
      rw [if_neg h]
      simp [gval]

/-- one group fits: left part, right part, number of limbs -/
def GrpFits (P : Params) (e : Nat × Nat × Nat) : Prop :=
  (e.2.2 = 1 ∨ e.2.2 = 2) ∧ e.1 < 2 ^ ((e.2.2 + 1) * P.bits + 9) ∧ e.2.1 < groupPad P e.2.2

theorem groupPad_le (P : Params) (k : Nat) (hk : k = 1 ∨ k = 2) : groupPad P k ≤ 2 ^ ((k + 1) * P.bits + 7) := by
  unfold groupPad
  exact Nat.pow_le_pow_right (by norm_num) (by omega)

/-- bounds used in one step of the carry loop -/
theorem carry_bounds (P : Params) (hP : P.Ok) (e : Nat × Nat × Nat) (he : GrpFits P e) (cin extra : Nat)
    (hc : cin < 2 ^ (5 + P.bits * 2)) (hx : extra < 2 ^ (5 + P.bits * 2)) :
    e.1 + cin + groupPad P e.2.2 < 2 ^ ((e.2.2 + 1) * P.bits + 10) ∧
    2 ^ ((e.2.2 + 1) * P.bits + 10) ≤ 2 ^ (4 * P.bits + 8) ∧
    (e.1 + cin + groupPad P e.2.2) / 2 ^ (P.bits * e.2.2) < 2 ^ (5 + P.bits * 2) ∧
    extra + groupPad P e.2.2 < 2 ^ ((e.2.2 + 1) * P.bits + 10) ∧
    (extra + groupPad P e.2.2) / 2 ^ (P.bits * e.2.2) < 2 ^ (5 + P.bits * 2) := by
  obtain ⟨hk, h1, h2⟩ := he
  have hb := hP.top
  have hb2 := hP.top2
  have hp := groupPad_le P _ hk
  have hc' : cin < 2 ^ ((e.2.2 + 1) * P.bits + 5) := by
    refine lt_of_lt_of_le hc (Nat.pow_le_pow_right (by norm_num) ?_)
    rcases hk with h | h <;> rw [h] <;> omega
  have hx' : extra < 2 ^ ((e.2.2 + 1) * P.bits + 5) := by
    refine lt_of_lt_of_le hx (Nat.pow_le_pow_right (by norm_num) ?_)
    rcases hk with h | h <;> rw [h] <;> omega
  rw [pow_add] at h1 hp hc' hx'
  have hs1 : e.1 + cin + groupPad P e.2.2 < 2 ^ ((e.2.2 + 1) * P.bits + 10) := by
    rw [pow_add]; omega
  have hs2 : extra + groupPad P e.2.2 < 2 ^ ((e.2.2 + 1) * P.bits + 10) := by
    rw [pow_add]; omega
  have hexp : 2 ^ ((e.2.2 + 1) * P.bits + 10) ≤ 2 ^ (5 + P.bits * 2) * 2 ^ (P.bits * e.2.2) := by
    rw [← pow_add]
    refine Nat.pow_le_pow_right (by norm_num) ?_
    rcases hk with h | h <;> rw [h] <;> omega
  refine ⟨hs1, ?_, ?_, hs2, ?_⟩
  · refine Nat.pow_le_pow_right (by norm_num) ?_
    rcases hk with h | h <;> rw [h] <;> omega
  · rw [Nat.div_lt_iff_lt_mul (by positivity)]
    exact lt_of_lt_of_le hs1 hexp
  · rw [Nat.div_lt_iff_lt_mul (by positivity)]
    exact lt_of_lt_of_le hs2 hexp

theorem split_iff (S x y e acc : Nat) (hS : 0 < S) :
    (e % S = acc % S ∧ x + e / S = y + acc / S) ↔ S * x + e = S * y + acc := by
  constructor
  · rintro ⟨h1, h2⟩
    have e1 := Nat.div_add_mod e S
    have e2 := Nat.div_add_mod acc S
    have : S * (x + e / S) = S * (y + acc / S) := by rw [h2]
    rw [Nat.mul_add, Nat.mul_add] at this
    omega
  · intro h
    have h1 := congrArg (· % S) h
    have h2 := congrArg (· / S) h
    simp only [Nat.mul_add_mod, Nat.mul_add_div hS] at h1 h2
    exact ⟨h1, h2⟩

/-- the values of one step of the carry loop -/
theorem carry_step (P : Params) (hP : P.Ok) (hF : 2 ^ (4 * P.bits + 8) ≤ ScalarRepr.order F) (e : Nat × Nat × Nat)
    (he : GrpFits P e) (cin extra : Nat) (hc : cin < 2 ^ (5 + P.bits * 2)) (hx : extra < 2 ^ (5 + P.bits * 2)) :
    ScalarRepr.val (e.2.1 : F) = e.2.1 ∧
    groupCarry P (e.1 : F) (e.2.1 : F) (cin : F) e.2.2
      = (((e.1 + cin + groupPad P e.2.2 - e.2.1) / 2 ^ (P.bits * e.2.2) : Nat) : F) ∧
    groupExtra F P extra e.2.2 = extra + groupPad P e.2.2 := by
  obtain ⟨h1, h2, h3, h4, h5⟩ := carry_bounds P hP e he cin extra hc hx
  obtain ⟨hk, _, hr⟩ := he
  refine ⟨ScalarRepr.val_cast _ (by omega), ?_, ?_⟩
  · unfold groupCarry groupSum
    rw [show (e.1 : F) + (cin : F) + (groupPad P e.2.2 : F) - (e.2.1 : F)
      = ((e.1 + cin + groupPad P e.2.2 - e.2.1 : Nat) : F) by
        rw [Nat.cast_sub (by omega)]; push_cast; ring]
    rw [ScalarRepr.val_cast _ (by omega), Nat.mul_comm e.2.2]
  · unfold groupExtra
    rw [ScalarRepr.val_cast _ (by omega)]

/-- The carry loop succeeds exactly when the two sides are equal integers. -/
theorem carryLoop_iff [DecidableEq F] (P : Params) (hP : P.Ok) (hF : 2 ^ (4 * P.bits + 8) ≤ ScalarRepr.order F)
    (gs : List (Nat × Nat × Nat)) (hne : gs ≠ []) (hg : ∀ e ∈ gs, GrpFits P e) (cin extra : Nat)
    (hc : cin < 2 ^ (5 + P.bits * 2)) (hx : extra < 2 ^ (5 + P.bits * 2)) :
    carryLoop P (gs.map (fun e => ((e.1 : F), (e.2.1 : F), e.2.2))) (cin : F) extra = some () ↔
      gval P.bits (gs.map (fun e => (e.1, e.2.2))) + cin = gval P.bits (gs.map (fun e => (e.2.1, e.2.2))) + extra := by
  induction gs generalizing cin extra with
  | nil => exact absurd rfl hne
  | cons e rest ih =>
    have he := hg e (by simp)
    obtain ⟨s1, s2, s3⟩ := carry_step (F := F) P hP hF e he cin extra hc hx
    obtain ⟨b1, b2, b3, b4, b5⟩ := carry_bounds P hP e he cin extra hc hx
    have hr := he.2.2
    have hS : 0 < 2 ^ (P.bits * e.2.2) := by positivity
    simp only [List.map_cons, carryLoop, s1, s2, s3, gval]
    set E := e.1 + cin + groupPad P e.2.2 - e.2.1 with hE
    set acc := extra + groupPad P e.2.2 with hacc
    have hdm := Nat.div_add_mod E (2 ^ (P.bits * e.2.2))
    have hml := Nat.mod_lt acc hS
    have hcb : E / 2 ^ (P.bits * e.2.2) < 2 ^ (5 + P.bits * 2) :=
      lt_of_le_of_lt (Nat.div_le_div_right (by omega)) b3
    have hord : 2 ^ (5 + P.bits * 2) ≤ 2 ^ (4 * P.bits + 8) := Nat.pow_le_pow_right (by norm_num) (by omega)
    have hSle : 2 ^ (P.bits * e.2.2) ≤ 2 ^ ((e.2.2 + 1) * P.bits + 10) := by
      refine Nat.pow_le_pow_right (by norm_num) ?_
      rcases he.1 with h | h <;> rw [h] <;> omega
    have hEacc : E / 2 ^ (P.bits * e.2.2) * 2 ^ (P.bits * e.2.2) + acc % 2 ^ (P.bits * e.2.2)
        < ScalarRepr.order F := by
      have h1 : E / 2 ^ (P.bits * e.2.2) * 2 ^ (P.bits * e.2.2) ≤ E := Nat.div_mul_le_self _ _
      have h3 : 2 ^ ((e.2.2 + 1) * P.bits + 10) + 2 ^ (P.bits * e.2.2) ≤ 2 ^ (4 * P.bits + 8) := by
        have hb := hP.top
        have e1 : 2 ^ ((e.2.2 + 1) * P.bits + 10) ≤ 2 ^ (4 * P.bits + 7) := by
          refine Nat.pow_le_pow_right (by norm_num) ?_
          have := hP.top2
          rcases he.1 with h | h <;> rw [h] <;> omega
        have e2 : 2 ^ (P.bits * e.2.2) ≤ 2 ^ (4 * P.bits + 7) := hSle.trans e1
        exact (Nat.add_le_add e1 e2).trans (le_of_eq (by ring))
      omega
    have hguard : ((e.1 : F) + (groupPad P e.2.2 : F) + (cin : F) - (e.2.1 : F)
        = ((E / 2 ^ (P.bits * e.2.2) : Nat) : F) * ((2 ^ (P.bits * e.2.2) : Nat) : F)
          + ((acc % 2 ^ (P.bits * e.2.2) : Nat) : F)) ↔ E % 2 ^ (P.bits * e.2.2) = acc % 2 ^ (P.bits * e.2.2) := by
      rw [show (e.1 : F) + (groupPad P e.2.2 : F) + (cin : F) - (e.2.1 : F) = (E : F) by
        rw [hE, Nat.cast_sub (by omega)]; push_cast; ring]
      have hElt : E < ScalarRepr.order F := by omega
      rw [← Nat.cast_mul, ← Nat.cast_add]
      constructor
      · intro h
        have h' := cast_inj (F := F) hElt hEacc h
        rw [Nat.mul_comm] at h'
        exact Nat.add_left_cancel (hdm.trans h')
      · intro h
        rw [← h, Nat.mul_comm, hdm]
    have hgoal : (e.1 + 2 ^ (P.bits * e.2.2) * gval P.bits (rest.map (fun e => (e.1, e.2.2))) + cin
          = e.2.1 + 2 ^ (P.bits * e.2.2) * gval P.bits (rest.map (fun e => (e.2.1, e.2.2))) + extra) ↔
        (E % 2 ^ (P.bits * e.2.2) = acc % 2 ^ (P.bits * e.2.2) ∧
          gval P.bits (rest.map (fun e => (e.1, e.2.2))) + E / 2 ^ (P.bits * e.2.2)
            = gval P.bits (rest.map (fun e => (e.2.1, e.2.2))) + acc / 2 ^ (P.bits * e.2.2)) := by
      rw [split_iff _ _ _ _ _ hS]
      omega
    rw [hgoal]
    by_cases h1 : E % 2 ^ (P.bits * e.2.2) = acc % 2 ^ (P.bits * e.2.2)
    · have hg1 := hguard.mpr h1
      simp only [guard, if_pos hr, if_pos hg1, Option.pure_def, Option.bind_eq_bind, Option.bind_some, h1, true_and]
      by_cases hrest : rest = []
      · subst hrest
        simp only [List.map_nil, if_true, gval, Nat.zero_add]
        constructor
        · intro h
          split at h
          · rename_i h2
            exact cast_inj (F := F) (by omega) (by omega) h2
          · simp [failure] at h
        · intro h
          rw [if_pos (by rw [h])]
      · rw [if_neg (by simp [hrest])]
        rw [ScalarRepr.val_cast _ (by omega), if_pos hcb]
        simp only [Option.bind_some]
        rw [ih hrest (fun e he => hg e (by simp [he])) _ _ hcb b5]
    · simp only [guard, if_pos hr, if_neg (fun h => h1 (hguard.mp h)), Option.pure_def, Option.bind_eq_bind,
        Option.bind_some, failure, Option.bind_none]
      constructor
      · intro h; exact absurd h (by simp)
      · intro h; exact absurd h.1 h1

omit [ScalarRepr F] in
theorem groupLimbs_eq (b n : Nat) (hn : 1 ≤ n) (A : Nat → F) :
    groupLimbs ((2 ^ b : Nat) : F) ((List.range (2 * n - 1)).map A)
      = some ((List.range n).map (fun i => (grp b (2 * n - 1) A i, grpSize (2 * n - 1) i))) := by
  unfold groupLimbs
  have hl : ((List.range (2 * n - 1)).map A).length = 2 * n - 1 := by simp
  rw [hl, show (2 * n - 1 + 1) / 2 = n by omega]
  refine mapM_some _ _ _ (fun i hi => ?_)
  rw [List.mem_range] at hi
  unfold grp grpSize
  split
  · rename_i h
    rw [range_map_get _ _ _ (by omega), range_map_get _ _ _ (by omega)]
    rfl
  · rw [range_map_get _ _ _ (by omega)]
    rfl

theorem grp_cast (b m : Nat) (L : Nat → Nat) (i : Nat) : ((grp b m L i : Nat) : F) = grp b m (fun i => (L i : F)) i := by
  unfold grp
  split
  · push_cast; ring
  · rfl

/-- the groups of a product with few additions, and of `k * r`, fit -/
theorem grp_fits (P : Params) (hP : P.Ok) (L R : Nat → Nat) (p : Nat) (hp : p < 32)
    (hL : ∀ i < P.limbsMul, L i ≤ p * (P.limbs * 2 ^ (2 * P.bits)))
    (hR : ∀ i < P.limbsMul, R i ≤ P.limbs * 2 ^ (2 * P.bits)) (i : Nat) (hi : i < P.limbs) :
    GrpFits P (grp P.bits P.limbsMul L i, grp P.bits P.limbsMul R i, grpSize P.limbsMul i) := by
  have hn := hP.le
  have hm := hP.mul
  have hLe : ∀ i < P.limbsMul, L i < 2 ^ (2 * P.bits + 8) := by
    intro i hi
    refine lt_of_le_of_lt (hL i hi) ?_
    rw [pow_add]
    have h1 : p * (P.limbs * 2 ^ (2 * P.bits)) ≤ 31 * (8 * 2 ^ (2 * P.bits)) :=
      Nat.mul_le_mul (by omega) (Nat.mul_le_mul_right _ hn)
    have : 0 < 2 ^ (2 * P.bits) := by positivity
    omega
  have hRe : ∀ i < P.limbsMul, R i ≤ 2 ^ (2 * P.bits + 3) := by
    intro i hi
    refine (hR i hi).trans ?_
    rw [pow_add, Nat.mul_comm]
    exact Nat.mul_le_mul_left _ hn
  unfold GrpFits grp grpSize groupPad
  by_cases h : 2 * i + 1 < P.limbsMul
  · rw [if_pos h, if_pos h, if_pos h]
    have a1 := hLe (2 * i) (by omega)
    have a2 := hLe (2 * i + 1) h
    have b1 := hRe (2 * i) (by omega)
    have b2 := hRe (2 * i + 1) h
    have c1 : L (2 * i + 1) * 2 ^ P.bits ≤ 2 ^ (2 * P.bits + 8) * 2 ^ P.bits := Nat.mul_le_mul_right _ a2.le
    have c2 : R (2 * i + 1) * 2 ^ P.bits ≤ 2 ^ (2 * P.bits + 3) * 2 ^ P.bits := Nat.mul_le_mul_right _ b2
    have d1 : 2 ^ (2 * P.bits + 8) ≤ 2 ^ (2 * P.bits + 8) * 2 ^ P.bits := Nat.le_mul_of_pos_right _ (by positivity)
    have d2 : 2 ^ (2 * P.bits + 3) ≤ 2 ^ (2 * P.bits + 3) * 2 ^ P.bits := Nat.le_mul_of_pos_right _ (by positivity)
    have e1 : 2 ^ ((2 + 1) * P.bits + 9) = 2 * (2 ^ (2 * P.bits + 8) * 2 ^ P.bits) := by
      rw [← pow_add, ← pow_succ']; congr 1; ring
    have e2 : 2 ^ ((2 + 1) * P.bits + 2 + 5) = 16 * (2 ^ (2 * P.bits + 3) * 2 ^ P.bits) := by
      rw [← pow_add, show (16 : Nat) = 2 ^ 4 by norm_num, ← pow_add]; congr 1; ring
    have e3 : 0 < 2 ^ (2 * P.bits + 3) * 2 ^ P.bits := by positivity
    refine ⟨Or.inr rfl, ?_, ?_⟩
    · show L (2 * i) + L (2 * i + 1) * ((2 ^ P.bits : Nat) : Nat) < 2 ^ ((2 + 1) * P.bits + 9)
      rw [e1]; omega
    · show R (2 * i) + R (2 * i + 1) * ((2 ^ P.bits : Nat) : Nat) < 2 ^ ((2 + 1) * P.bits + 2 + 5)
      rw [e2]; omega
  · rw [if_neg h, if_neg h, if_neg h]
    have a1 := hLe (2 * i) (by omega)
    have b1 := hRe (2 * i) (by omega)
    refine ⟨Or.inl rfl, ?_, ?_⟩
    · show L (2 * i) < 2 ^ ((1 + 1) * P.bits + 9)
      refine lt_of_lt_of_le a1 (Nat.pow_le_pow_right (by norm_num) (by omega))
    · show R (2 * i) < 2 ^ ((1 + 1) * P.bits + 1 + 5)
      refine lt_of_le_of_lt b1 (Nat.pow_lt_pow_right (by norm_num) (by omega))

theorem SimMul.Ok.toBig {P : Params} (hP : P.Ok) {a : SimMul F} (ha : a.Ok P) (hp : a.prod < 32)
    (hF : 2 ^ (4 * P.bits + 8) ≤ ScalarRepr.order F) : a.toBig P = some a.val := by
  obtain ⟨L, h1, h2, h3, _⟩ := ha
  have hj : joinLimbs (2 ^ P.bits) a.limbs = a.val := by
    rw [h1, joinLimbs_eq, ← h2]
    refine value_congr _ _ _ _ (fun i hi => ScalarRepr.val_cast _ ?_)
    refine lt_of_le_of_lt (h3 i hi) (lt_of_lt_of_le ?_ hF)
    have e : a.prod * (P.limbs * 2 ^ (2 * P.bits)) ≤ 31 * (8 * 2 ^ (2 * P.bits)) :=
      Nat.mul_le_mul (by omega) (Nat.mul_le_mul_right _ hP.le)
    refine lt_of_le_of_lt e ?_
    have e2 : 2 ^ (2 * P.bits + 8) ≤ 2 ^ (4 * P.bits + 8) := Nat.pow_le_pow_right (by norm_num) (by omega)
    refine lt_of_lt_of_le ?_ e2
    rw [pow_add]
    have : 0 < 2 ^ (2 * P.bits) := by positivity
    omega
  unfold SimMul.toBig
  simp [hj]

/-- what is known about `k` in `enforce_zero` and the limbs of `k` -/
theorem k_limbs (P : Params) (hP : P.Ok) (k : Nat) (hk : k < P.r * 2 ^ 5) :
    ∃ K : Nat → Nat, (ofBig P k : Sim F).limbs = (List.range P.limbs).map (fun i => (K i : F)) ∧
      value P.bits P.limbs K = k ∧ (∀ i < P.limbs, K i < 2 ^ (if i = P.limbs - 1 then P.top + 5 else P.bits)) := by
  obtain ⟨L, h1, h2, h3⟩ := splitLimbs_spec P.bits P.limbs k
  have hpos := hP.pos
  have hlt : k < 2 ^ (P.bits * (P.limbs - 1) + (P.top + 5)) := by
    refine hk.trans ?_
    rw [← Nat.add_assoc, pow_add]
    exact Nat.mul_lt_mul_of_pos_right hP.rLo (by norm_num)
  have htop := hP.top
  refine ⟨L, ?_, ?_, ?_⟩
  · unfold ofBig
    rw [h1, List.map_map]
    rfl
  · rw [h3]
    refine Nat.mod_eq_of_lt (lt_of_lt_of_le hlt (Nat.pow_le_pow_right (by norm_num) ?_))
    obtain ⟨m, hm⟩ : ∃ m, P.limbs = m + 1 := ⟨P.limbs - 1, by omega⟩
    rw [hm, Nat.mul_succ]
    simp only [Nat.succ_eq_add_one, Nat.add_sub_cancel]
    omega
  · intro i hi
    rw [h2 i hi]
    split
    · rename_i h
      rw [h]
      refine lt_of_le_of_lt (Nat.mod_le _ _) ?_
      rw [Nat.div_lt_iff_lt_mul (by positivity), ← pow_add]
      rwa [Nat.add_comm (P.top + 5)]
    · exact Nat.mod_lt _ (by positivity)

/-- the bound of a product of limbs of `r` and `k` -/
theorem rk_le (P : Params) (hP : P.Ok) (K : Nat → Nat) (hK : ∀ i < P.limbs, K i < 2 ^ P.bits) (i : Nat) :
    conv P.limbs P.rAt K i ≤ P.limbs * 2 ^ (2 * P.bits) := by
  refine (conv_le P.limbs _ _ _ K i (fun i hi => (hP.rLt i hi).le) (fun i hi => (hK i hi).le)).trans (le_of_eq ?_)
  rw [Nat.two_mul, pow_add]

/-- C61: on a consistent product with fewer than 32 additions, the native `enforce_zero` panics unless the value is
divisible by the modulus, and succeeds if it is. -/
theorem C61_enforce_zero [DecidableEq F] (P : Params) (hP : P.Ok) (hF : 2 ^ (4 * P.bits + 8) ≤ ScalarRepr.order F)
    (a : SimMul F) (ha : a.Ok P) (hp : a.prod < 32) : a.enforceZero P = some () ↔ P.r ∣ a.val := by
  have htb := ha.toBig hP hp hF
  obtain ⟨L, hL1, hL2, hL3, hL4⟩ := ha
  have hr := hP.rPos
  have hm := hP.mul
  have hpos := hP.pos
  constructor
  · intro h
    unfold SimMul.enforceZero at h
    rw [htb] at h
    simp only [guard, if_pos (show a.prod < 2 ^ 5 from hp), Option.pure_def, Option.bind_eq_bind, Option.bind_some] at h
    split at h
    · rename_i h1
      exact Nat.dvd_of_mod_eq_zero h1
    · simp [failure] at h
  · intro hd
    have hk : a.val / P.r < P.r * 2 ^ 5 := by
      rw [Nat.div_lt_iff_lt_mul hr]
      refine lt_of_le_of_lt hL4 ?_
      have : 0 < P.r ^ 2 := by positivity
      have e : P.r * 2 ^ 5 * P.r = 32 * P.r ^ 2 := by ring
      rw [e]
      exact Nat.mul_lt_mul_of_pos_right hp this
    obtain ⟨K, hK1, hK2, hK3⟩ := k_limbs (F := F) P hP _ hk
    have hKb : ∀ i < P.limbs, K i < 2 ^ P.bits := by
      intro i hi
      refine lt_of_lt_of_le (hK3 i hi) (Nat.pow_le_pow_right (by norm_num) ?_)
      have := hP.top
      split <;> omega
    have hrl : P.rLimbs.map (fun (l : Nat) => (l : F)) = (List.range P.limbs).map (fun i => (P.rAt i : F)) := by
      conv_lhs => rw [hP.rLimbs_eq]
      rw [List.map_map]; rfl
    unfold SimMul.enforceZero
    rw [htb]
    simp only [guard, if_pos (show a.prod < 2 ^ 5 from hp), Option.pure_def, Option.bind_eq_bind, Option.bind_some,
      if_pos (Nat.mod_eq_zero_of_dvd hd), if_pos hk.le]
    rw [hrl, hK1, schoolbook_eq _ _ _ _ (le_of_eq hm.symm)]
    simp only [Option.bind_some]
    rw [hL1, hm, groupLimbs_eq _ _ hpos, groupLimbs_eq _ _ hpos]
    simp only [Option.bind_some]
    have hz : (((List.range P.limbs).map (fun i => (grp P.bits (2 * P.limbs - 1) (fun i => (L i : F)) i,
          grpSize (2 * P.limbs - 1) i))).zip ((List.range P.limbs).map (fun i =>
          (grp P.bits (2 * P.limbs - 1) (conv P.limbs (fun i => (P.rAt i : F)) (fun i => (K i : F))) i,
            grpSize (2 * P.limbs - 1) i)))).map (fun e => (e.1.1, e.2.1, e.1.2))
        = (((List.range P.limbs).map (fun i => (grp P.bits (2 * P.limbs - 1) L i,
            grp P.bits (2 * P.limbs - 1) (conv P.limbs P.rAt K) i, grpSize (2 * P.limbs - 1) i))).map
            (fun e => ((e.1 : F), (e.2.1 : F), e.2.2))) := by
      rw [List.zip_map', List.map_map, List.map_map]
      refine List.map_congr_left (fun i _ => ?_)
      simp only [Function.comp_apply, grp_cast]
      congr 3
      funext j
      rw [conv_cast]
    rw [hz]
    have key := carryLoop_iff (F := F) P hP hF ((List.range P.limbs).map (fun i => (grp P.bits (2 * P.limbs - 1) L i,
            grp P.bits (2 * P.limbs - 1) (conv P.limbs P.rAt K) i, grpSize (2 * P.limbs - 1) i)))
      (by simp; omega) ?_ 0 0 (by positivity) (by positivity)
    · rw [Nat.cast_zero] at key
      rw [key, List.map_map, List.map_map]
      have g1 := gval_grp P.bits P.limbs hpos L
      have g2 := gval_grp P.bits P.limbs hpos (conv P.limbs P.rAt K)
      have e1 : ((fun e : Nat × Nat × Nat => (e.1, e.2.2)) ∘ fun i => (grp P.bits (2 * P.limbs - 1) L i,
            grp P.bits (2 * P.limbs - 1) (conv P.limbs P.rAt K) i, grpSize (2 * P.limbs - 1) i))
          = fun i => (grp P.bits (2 * P.limbs - 1) L i, grpSize (2 * P.limbs - 1) i) := rfl
      have e2 : ((fun e : Nat × Nat × Nat => (e.2.1, e.2.2)) ∘ fun i => (grp P.bits (2 * P.limbs - 1) L i,
            grp P.bits (2 * P.limbs - 1) (conv P.limbs P.rAt K) i, grpSize (2 * P.limbs - 1) i))
          = fun i => (grp P.bits (2 * P.limbs - 1) (conv P.limbs P.rAt K) i, grpSize (2 * P.limbs - 1) i) := rfl
      rw [e1, e2, g1, g2, value_conv _ _ _ _ _ (le_refl _), hP.rVal, hK2, ← hm, hL2, Nat.mul_div_cancel' hd]
    · intro e he
      obtain ⟨i, hi, rfl⟩ := List.mem_map.mp he
      rw [List.mem_range] at hi
      have := grp_fits P hP L (conv P.limbs P.rAt K) a.prod hp hL3 (fun i _ => rk_le P hP K hKb i) i hi
      rwa [hm] at this

end Verif.SimFr
