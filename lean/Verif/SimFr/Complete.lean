import Verif.SimFr.Circuit

/-!
C61 for the circuit, the other direction: on consistent values the gadgets do not panic, and the values the prover
stores satisfy the gates.
-/

namespace Verif.SimFr

open Verif.Plonk Verif.Plonk.Spec Finset Spec

variable {F : Type} [Field F]

/-- the values stored for the variables are the limbs, and the limbs are consistent -/
def SimVar.Held (P : Params) (cs : CS F) (a : SimVar F) : Prop :=
  a.val.Ok P ∧ a.var.length = P.limbs ∧
    ∀ (i v : Nat) (x : F), a.var[i]? = some v → a.val.limbs[i]? = some x → Has cs v x

/-- the same for products -/
def SimMulVar.Held (P : Params) (cs : CS F) (a : SimMulVar F) : Prop :=
  a.val.Ok P ∧ a.var.length = P.limbsMul ∧
    ∀ (i v : Nat) (x : F), a.var[i]? = some v → a.val.limbs[i]? = some x → Has cs v x

theorem SimVar.Held.mono {P : Params} {cs cs' : CS F} {pv : List Nat} {a : SimVar F} (hw : WF cs) (h : Mono cs cs' pv)
    (ha : a.Held P cs) : a.Held P cs' := ⟨ha.1, ha.2.1, fun i v x h1 h2 => (ha.2.2 i v x h1 h2).mono hw h⟩

theorem SimMulVar.Held.mono {P : Params} {cs cs' : CS F} {pv : List Nat} {a : SimMulVar F} (hw : WF cs)
    (h : Mono cs cs' pv) (ha : a.Held P cs) : a.Held P cs' :=
  ⟨ha.1, ha.2.1, fun i v x h1 h2 => (ha.2.2 i v x h1 h2).mono hw h⟩

theorem runs_newGate (vs : List Nat) (x : F) (g : Nat → Gate F) (cs : CS F) (hvs : ∀ v ∈ vs, v < cs.numVars)
    (hsub : ∀ o, ∀ v ∈ (g o).wires, v ∈ vs ∨ v = o ∨ v = 0)
    (hh : ∀ cs1 o, WF cs → Mono cs cs1 [] → Has cs1 o x → Gate.Holds (g o) cs1.value 0) :
    Runs (newGate vs x g) cs (fun o cs' => Has cs' o x) := by
  unfold newGate
  refine Runs.bind (runs_assertVars _ cs hvs) ?_
  rintro _ cs1 _ _ _ rfl
  refine Runs.bind (runs_newVar _ _) ?_
  intro o cs2 w1 w2 mo ho
  refine Runs.bind (runs_pushGate _ _ ?_ (hh cs2 o w1 mo ho)) ?_
  · intro v hv
    rcases hsub o v hv with h | h | h
    · exact lt_of_lt_of_le (hvs v h) mo.vars
    · rw [h]; exact ho.1
    · rw [h]; have := w2.two; omega
  · intro _ cs3 w2 _ mo2 _
    exact Runs.pure _ _ _ (ho.mono w2 mo2)

/-- collecting variables in a map over the limbs -/
theorem forall₂_get {α : Type} {R : Nat → α → Prop} {n : Nat} {l : List α} (h : List.Forall₂ R (List.range n) l)
    {i : Nat} {v : α} (hv : l[i]? = some v) : R i v := (forall₂_range h).2 i v hv

theorem get_lt {α : Type} {l : List α} {i : Nat} (h : i < l.length) : ∃ v, l[i]? = some v :=
  ⟨_, List.getElem?_eq_getElem h⟩

/-- C61: constants. -/
theorem C61_alloc_constant_complete (P : Params) (val : Sim F) (hv : val.Ok P) (cs : CS F) :
    Runs (allocConstant P val) cs (fun a cs' => a.Held P cs' ∧ a.val = val) := by
  have hv' := hv
  obtain ⟨L, h1, h2, h3, _⟩ := hv
  unfold allocConstant
  refine Runs.bind (Runs.mapM _ (fun cs i v => Has cs v (L i : F)) (fun _ _ _ _ hw mo h => h.mono hw mo) _ cs ?_) ?_
  · intro cs1 i hi _ _
    rw [List.mem_range] at hi
    refine Runs.bind (Runs.liftM _ _ (Sim.Ok.get h1 hi) _) ?_
    rintro _ _ _ _ _ ⟨rfl, rfl⟩
    refine Runs.bind (runs_newVar _ _) ?_
    intro v cs3 _ w3 _ hv
    refine Runs.bind (runs_insertConstantGate v _ _ hv) ?_
    intro _ cs4 w3 _ mo _
    exact Runs.pure _ _ _ (hv.mono w3 mo)
  · intro l cs1 _ _ _ hf
    refine Runs.pure _ _ _ ⟨⟨hv', (forall₂_range hf).1, ?_⟩, rfl⟩
    intro i v x hi hx
    have := forall₂_get hf hi
    have hlt := (List.getElem?_eq_some_iff.mp hi).1
    rw [(forall₂_range hf).1] at hlt
    rw [Sim.Ok.get h1 hlt] at hx
    rw [← Option.some.inj hx]
    exact this

/-- C61: public inputs. -/
theorem C61_alloc_input_complete (P : Params) (val : Sim F) (hv : val.Ok P) (cs : CS F) :
    Runs (allocInput P val) cs (fun a cs' => a.Held P cs' ∧ a.val = val) := by
  have hv' := hv
  obtain ⟨L, h1, h2, h3, _⟩ := hv
  unfold allocInput
  refine Runs.bind (Runs.mapM _ (fun cs i v => Has cs v (L i : F)) (fun _ _ _ _ hw mo h => h.mono hw mo) _ cs ?_) ?_
  · intro cs1 i hi _ _
    rw [List.mem_range] at hi
    refine Runs.bind (Runs.liftM _ _ (Sim.Ok.get h1 hi) _) ?_
    rintro _ _ _ _ _ ⟨rfl, rfl⟩
    exact runs_newVar _ _
  · intro l cs1 _ _ _ hf
    refine Runs.pure _ _ _ ⟨⟨hv', (forall₂_range hf).1, ?_⟩, rfl⟩
    intro i v x hi hx
    have := forall₂_get hf hi
    have hlt := (List.getElem?_eq_some_iff.mp hi).1
    rw [(forall₂_range hf).1] at hlt
    rw [Sim.Ok.get h1 hlt] at hx
    rw [← Option.some.inj hx]
    exact this

/-- C61: subtraction. -/
theorem C61_sub_complete (P : Params) (hP : P.Ok) (a b : SimVar F) (cs : CS F) (ha : a.Held P cs) (hb : b.Held P cs)
    (hs : b.val.adds = .strict ∨ b.val.adds = .one) :
    Runs (a.sub P b) cs (fun c cs' => c.Held P cs' ∧ a.val.sub P b.val = some c.val) := by
  obtain ⟨c, hc, hcok, -, -⟩ := C61_sub P hP a.val b.val ha.1 hb.1 hs
  obtain ⟨A, hA1, hA2, hA3, -⟩ := ha.1
  obtain ⟨B, hB1, hB2, hB3, -⟩ := hb.1
  have hBlt : ∀ i < P.limbs, B i < 2 ^ P.cap i := by
    intro i hi
    have := hB3 i hi
    have hp : b.val.adds.pads = 0 := by rcases hs with h | h <;> rw [h] <;> simp [Red.pads]
    rwa [hp, zero_mul, add_zero] at this
  have hcl := sub_limbs hP hs hc A B hA1 hB1 hBlt
  unfold SimVar.sub
  refine Runs.bind (Runs.liftM _ _ hc _) ?_
  rintro _ _ _ _ _ ⟨rfl, rfl⟩
  rename_i c cs w1 w2 mo
  refine Runs.bind (Runs.mapM _ (fun cs i v => Has cs v ((A i + P.padAt i - B i : Nat) : F))
    (fun _ _ _ _ hw mo h => h.mono hw mo) _ cs ?_) ?_
  · intro cs1 i hi mo1 _
    rw [List.mem_range] at hi
    refine Runs.bind (Runs.liftM _ ((A i + P.padAt i - B i : Nat) : F) (by rw [hcl, range_map_get _ _ _ hi]) _) ?_
    rintro _ _ _ _ _ ⟨rfl, rfl⟩
    refine Runs.bind (Runs.liftM _ _ (hP.padAt_get hi) _) ?_
    rintro _ _ _ _ _ ⟨rfl, rfl⟩
    obtain ⟨u, hu⟩ := get_lt (show i < a.var.length by rw [ha.2.1]; exact hi)
    obtain ⟨v, hv⟩ := get_lt (show i < b.var.length by rw [hb.2.1]; exact hi)
    have hu' := ((ha.2.2 i u _ hu (Sim.Ok.get hA1 hi)).mono w2 mo1)
    have hv' := ((hb.2.2 i v _ hv (Sim.Ok.get hB1 hi)).mono w2 mo1)
    refine Runs.bind (Runs.liftM _ _ hu _) ?_
    rintro _ _ _ _ _ ⟨rfl, rfl⟩
    refine Runs.bind (Runs.liftM _ _ hv _) ?_
    rintro _ _ _ _ _ ⟨rfl, rfl⟩
    refine runs_newGate _ _ _ _ (by simp [hu'.1, hv'.1]) ?_ ?_
    · intro o t ht
      simp [rawGate, Gate.wires] at ht ⊢
      tauto
    · intro cs2 o w mo2 ho
      have h1 := hBlt i hi
      have h2 := hP.padLo i hi
      rw [rawGate_holds, ho.2, (hu'.mono w mo2).2, (hv'.mono w mo2).2, Nat.cast_sub (by omega)]
      push_cast
      ring
  · intro l cs1 _ _ _ hf
    refine Runs.pure _ _ _ ⟨⟨hcok, (forall₂_range hf).1, ?_⟩, hc⟩
    intro i v x hi hx
    have := forall₂_get hf hi
    have hlt := (List.getElem?_eq_some_iff.mp hi).1
    rw [(forall₂_range hf).1] at hlt
    rw [hcl, range_map_get _ _ _ hlt] at hx
    rw [← Option.some.inj hx]
    exact this

/-- C61: multiplication. -/
theorem C61_mul_complete (P : Params) (hP : P.Ok) (a b : SimVar F) (cs : CS F) (h0 : Has cs 0 0) (ha : a.Held P cs)
    (hb : b.Held P cs) :
    Runs (a.mul P b) cs (fun c cs' => c.Held P cs' ∧ a.val.mul P b.val = some c.val) := by
  obtain ⟨c, hc, hcok, -, -⟩ := C61_mul P hP a.val b.val ha.1 hb.1
  obtain ⟨A, hA1, hA2, hA3, -⟩ := ha.1
  obtain ⟨B, hB1, hB2, hB3, -⟩ := hb.1
  have hcl : c.limbs = (List.range P.limbsMul).map (conv P.limbs (fun i => (A i : F)) (fun i => (B i : F))) := by
    have hc' := hc
    unfold Sim.mul at hc'
    rw [hA1, hB1, schoolbook_eq _ _ _ _ (le_of_eq hP.mul.symm)] at hc'
    simp only [Option.bind_eq_bind, Option.bind_some, Option.pure_def, Option.some.injEq] at hc'
    rw [← hc']
  unfold SimVar.mul
  refine Runs.bind (Runs.liftM _ _ hc _) ?_
  rintro _ _ _ _ _ ⟨rfl, rfl⟩
  rename_i c cs w1 w2 mo
  refine Runs.bind (Runs.mapM _ (fun cs i v => Has cs v (conv P.limbs (fun i => (A i : F)) (fun i => (B i : F)) i))
    (fun _ _ _ _ hw mo h => h.mono hw mo) _ cs ?_) ?_
  · intro cs1 i hi mo1 hw1
    rw [List.mem_range] at hi
    refine Runs.bind (Runs.foldlM _ (fun cs pre (s : Nat × F) => Has cs s.1 s.2 ∧
      s.2 = (pre.map (fun j => (A j : F) * (B (i - j) : F))).sum) (fun _ _ _ _ hw mo h => ⟨h.1.mono hw mo, h.2⟩) _ _ cs1
      ⟨h0.mono w2 mo1, by simp⟩ ?_) ?_
    · intro cs2 pre s j post mo2 hpre hw2 hs
      have hj : j ∈ lefts P.limbs i := by rw [hpre]; simp
      obtain ⟨j1, j2, j3⟩ := lefts_mem hP.pos hj
      unfold mulInner
      refine Runs.bind (Runs.liftM _ _ (Sim.Ok.get hA1 j1) _) ?_
      rintro _ _ _ _ _ ⟨rfl, rfl⟩
      refine Runs.bind (Runs.liftM _ _ (Sim.Ok.get hB1 j3) _) ?_
      rintro _ _ _ _ _ ⟨rfl, rfl⟩
      obtain ⟨u, hu⟩ := get_lt (show j < a.var.length by rw [ha.2.1]; exact j1)
      obtain ⟨v, hv⟩ := get_lt (show i - j < b.var.length by rw [hb.2.1]; exact j3)
      have hu' := ((ha.2.2 j u _ hu (Sim.Ok.get hA1 j1)).mono w2 mo1).mono hw1 mo2
      have hv' := ((hb.2.2 _ v _ hv (Sim.Ok.get hB1 j3)).mono w2 mo1).mono hw1 mo2
      refine Runs.bind (Runs.liftM _ _ hu _) ?_
      rintro _ _ _ _ _ ⟨rfl, rfl⟩
      refine Runs.bind (Runs.liftM _ _ hv _) ?_
      rintro _ _ _ _ _ ⟨rfl, rfl⟩
      refine Runs.bind (runs_newGate _ _ _ _ (by simp [hu'.1, hv'.1, hs.1.1]) ?_ ?_) ?_
      · intro o t ht
        simp [rawGate, Gate.wires] at ht ⊢
        tauto
      · intro cs2 o w mo2 ho
        rw [rawGate_holds, ho.2, (hu'.mono w mo2).2, (hv'.mono w mo2).2, (hs.1.mono w mo2).2]
        ring
      · intro o cs3 _ _ _ ho
        refine Runs.pure _ _ _ ⟨ho, ?_⟩
        rw [List.map_append, List.sum_append, ← hs.2]
        simp
    · intro s cs2 _ _ _ hs
      refine Runs.pure _ _ _ ?_
      rw [conv_lefts _ _ _ _ hP.pos, ← hs.2]
      exact hs.1
  · intro l cs1 _ _ _ hf
    refine Runs.pure _ _ _ ⟨⟨hcok, (forall₂_range hf).1, ?_⟩, hc⟩
    intro i v x hi hx
    have := forall₂_get hf hi
    have hlt := (List.getElem?_eq_some_iff.mp hi).1
    rw [(forall₂_range hf).1] at hlt
    rw [hcl, range_map_get _ _ _ hlt] at hx
    rw [← Option.some.inj hx]
    exact this

/-- C61: addition of products. -/
theorem C61_add_complete (P : Params) (a b : SimMulVar F) (cs : CS F) (ha : a.Held P cs) (hb : b.Held P cs) :
    Runs (a.add P b) cs (fun c cs' => c.Held P cs' ∧ a.val.add P b.val = some c.val) := by
  obtain ⟨c, hc, hcok, -, -⟩ := C61_add P a.val b.val ha.1 hb.1
  obtain ⟨A, hA1, hA2, hA3, -⟩ := ha.1
  obtain ⟨B, hB1, hB2, hB3, -⟩ := hb.1
  have hcl : c.limbs = (List.range P.limbsMul).map (fun i => (A i : F) + (B i : F)) := by
    have hc' := hc
    rw [add_eq _ _ hA1 hB1] at hc'
    rw [← Option.some.inj hc']
  unfold SimMulVar.add
  refine Runs.bind (Runs.liftM _ _ hc _) ?_
  rintro _ _ _ _ _ ⟨rfl, rfl⟩
  rename_i c cs w1 w2 mo
  refine Runs.bind (Runs.mapM _ (fun cs i v => Has cs v ((A i : F) + (B i : F)))
    (fun _ _ _ _ hw mo h => h.mono hw mo) _ cs ?_) ?_
  · intro cs1 i hi mo1 _
    rw [List.mem_range] at hi
    refine Runs.bind (Runs.liftM _ ((A i : F) + (B i : F)) (by rw [hcl, range_map_get _ _ _ hi]) _) ?_
    rintro _ _ _ _ _ ⟨rfl, rfl⟩
    obtain ⟨u, hu⟩ := get_lt (show i < a.var.length by rw [ha.2.1]; exact hi)
    obtain ⟨v, hv⟩ := get_lt (show i < b.var.length by rw [hb.2.1]; exact hi)
    have hu' := ((ha.2.2 i u _ hu (SimMul.Ok.get hA1 hi)).mono w2 mo1)
    have hv' := ((hb.2.2 i v _ hv (SimMul.Ok.get hB1 hi)).mono w2 mo1)
    refine Runs.bind (Runs.liftM _ _ hu _) ?_
    rintro _ _ _ _ _ ⟨rfl, rfl⟩
    refine Runs.bind (Runs.liftM _ _ hv _) ?_
    rintro _ _ _ _ _ ⟨rfl, rfl⟩
    refine runs_newGate _ _ _ _ (by simp [hu'.1, hv'.1]) ?_ ?_
    · intro o t ht
      simp [rawGate, Gate.wires] at ht ⊢
      tauto
    · intro cs2 o w mo2 ho
      rw [rawGate_holds, ho.2, (hu'.mono w mo2).2, (hv'.mono w mo2).2]
      ring
  · intro l cs1 _ _ _ hf
    refine Runs.pure _ _ _ ⟨⟨hcok, (forall₂_range hf).1, ?_⟩, hc⟩
    intro i v x hi hx
    have := forall₂_get hf hi
    have hlt := (List.getElem?_eq_some_iff.mp hi).1
    rw [(forall₂_range hf).1] at hlt
    rw [hcl, range_map_get _ _ _ hlt] at hx
    rw [← Option.some.inj hx]
    exact this

/-- C61: subtraction from a product. -/
theorem C61_mul_sub_complete (P : Params) (hP : P.Ok) (a : SimMulVar F) (b : SimVar F) (cs : CS F) (ha : a.Held P cs)
    (hb : b.Held P cs) (hs : b.val.adds.num ≤ 4) :
    Runs (a.sub P b) cs (fun c cs' => c.Held P cs' ∧ a.val.sub P b.val = some c.val) := by
  obtain ⟨c, hc, hcok, -, -⟩ := C61_mul_sub P hP a.val b.val ha.1 hb.1 hs
  obtain ⟨A, hA1, hA2, hA3, -⟩ := ha.1
  obtain ⟨B, hB1, hB2, hB3, hB4⟩ := hb.1
  have hm := hP.mul
  have hpos := hP.pos
  have hle : b.val.val ≤ a.val.val + P.pad + P.pad + P.pad + P.pad := by
    have := hP.pad2
    have : b.val.val < 5 * P.r := lt_of_lt_of_le hB4 (Nat.mul_le_mul_right _ (by omega))
    omega
  have hcl : c.limbs = (List.range P.limbsMul).map (fun i => if i < P.limbs then
      (A i : F) + (P.padAt i : F) + (P.padAt i : F) + (P.padAt i : F) + (P.padAt i : F) - (B i : F) else (A i : F)) := by
    have hc' := hc
    rw [mulsub_eq hP _ _ hA1 hB1 hs hle] at hc'
    rw [← Option.some.inj hc']
  unfold SimMulVar.sub
  refine Runs.bind (Runs.liftM _ _ hc _) ?_
  rintro _ _ _ _ _ ⟨rfl, rfl⟩
  rename_i c cs w1 w2 mo
  refine Runs.bind (Runs.mapM _ (fun cs i v => Has cs v
    ((A i : F) + (P.padAt i : F) + (P.padAt i : F) + (P.padAt i : F) + (P.padAt i : F) - (B i : F)))
    (fun _ _ _ _ hw mo h => h.mono hw mo) _ cs ?_) ?_
  · intro cs1 i hi mo1 _
    rw [List.mem_range] at hi
    refine Runs.bind (Runs.liftM _ ((A i : F) + (P.padAt i : F) + (P.padAt i : F) + (P.padAt i : F) + (P.padAt i : F)
      - (B i : F)) (by rw [hcl, range_map_get _ _ _ (by omega), if_pos hi]) _) ?_
    rintro _ _ _ _ _ ⟨rfl, rfl⟩
    refine Runs.bind (Runs.liftM _ _ (hP.padAt_get hi) _) ?_
    rintro _ _ _ _ _ ⟨rfl, rfl⟩
    obtain ⟨u, hu⟩ := get_lt (show i < a.var.length by rw [ha.2.1]; omega)
    obtain ⟨v, hv⟩ := get_lt (show i < b.var.length by rw [hb.2.1]; exact hi)
    have hu' := ((ha.2.2 i u _ hu (SimMul.Ok.get hA1 (by omega))).mono w2 mo1)
    have hv' := ((hb.2.2 i v _ hv (Sim.Ok.get hB1 hi)).mono w2 mo1)
    refine Runs.bind (Runs.liftM _ _ hu _) ?_
    rintro _ _ _ _ _ ⟨rfl, rfl⟩
    refine Runs.bind (Runs.liftM _ _ hv _) ?_
    rintro _ _ _ _ _ ⟨rfl, rfl⟩
    refine runs_newGate _ _ _ _ (by simp [hu'.1, hv'.1]) ?_ ?_
    · intro o t ht
      simp [rawGate, Gate.wires] at ht ⊢
      tauto
    · intro cs2 o w mo2 ho
      rw [rawGate_holds, ho.2, (hu'.mono w mo2).2, (hv'.mono w mo2).2]
      ring
  · intro l cs1 w3 w4 mo3 hf
    have hl := (forall₂_range hf).1
    refine Runs.pure _ _ _ ⟨⟨hcok, ?_, ?_⟩, hc⟩
    · simp only [List.length_append, List.length_drop, hl, ha.2.1]
      omega
    · intro i v x hi hx
      simp only at hi hx
      by_cases hin : i < P.limbs
      · rw [List.getElem?_append_left (by omega)] at hi
        have := forall₂_get hf hi
        rw [hcl, range_map_get _ _ _ (by omega), if_pos hin] at hx
        rw [← Option.some.inj hx]
        exact this
      · rw [List.getElem?_append_right (by omega), List.getElem?_drop, hl,
          show P.limbs + (i - P.limbs) = i by omega] at hi
        have hlt := (List.getElem?_eq_some_iff.mp hi).1
        rw [ha.2.1] at hlt
        rw [hcl, range_map_get _ _ _ hlt, if_neg hin] at hx
        rw [← Option.some.inj hx]
        exact (ha.2.2 i v _ hi (SimMul.Ok.get hA1 hlt)).mono w3 mo3

variable [ScalarRepr F]

/-- C61: witnesses. -/
theorem C61_alloc_witness_complete (P : Params) (hP : P.Ok) (hF : 2 ^ P.bits ≤ ScalarRepr.order F) (val : Sim F)
    (hv : val.Ok P) (hs : val.adds = .strict) (cs : CS F) (h0 : Has cs 0 0) :
    Runs (allocWitness P val) cs (fun r cs' => r.1.Held P cs' ∧ r.1.val = { val with adds := .one } ∧
      ∀ i, i < P.bits * (P.limbs - 1) + P.top → ∃ v, r.2[i]? = some v ∧ Has cs' v (bit val.val i)) := by
  obtain ⟨L, h1, h2, h3, h4⟩ := hv
  have hL : ∀ i < P.limbs, L i < 2 ^ P.cap i := by
    intro i hi
    have := h3 i hi
    rwa [hs, show Red.pads .strict = 0 from rfl, zero_mul, add_zero] at this
  have hLb : ∀ i < P.limbs, L i < 2 ^ P.bits := fun i hi =>
    lt_of_lt_of_le (hL i hi) (Nat.pow_le_pow_right (by norm_num) (hP.cap_le i))
  refine Runs.withWF (fun hws => ?_)
  unfold allocWitness
  rw [if_pos hs]
  refine Runs.bind (Runs.mapM _ (fun cs i (p : Nat × List Nat) => Has cs p.1 (L i : F) ∧ p.2.length = P.cap i ∧
    ∀ j, j < P.cap i → ∃ v, p.2[j]? = some v ∧ Has cs v (bit (L i) j)) ?_ _ cs ?_) ?_
  · rintro _ _ _ _ hw mo ⟨g1, g2, g3⟩
    refine ⟨g1.mono hw mo, g2, fun j hj => ?_⟩
    obtain ⟨v, g4, g5⟩ := g3 j hj
    exact ⟨v, g4, g5.mono hw mo⟩
  · intro cs1 i hi mo1 hw1
    rw [List.mem_range] at hi
    refine Runs.bind (Runs.liftM _ _ (Sim.Ok.get h1 hi) _) ?_
    rintro _ _ _ _ _ ⟨rfl, rfl⟩
    refine Runs.bind (runs_newVar _ _) ?_
    intro v cs3 w2 w3 mo3 hv
    have hval : ScalarRepr.val ((L i : Nat) : F) = L i := ScalarRepr.val_cast _ (lt_of_lt_of_le (hLb i hi) hF)
    refine Runs.bind (runs_rangeCheck v (P.cap i) _ _ (hP.two_le_cap i) ?_ hv (by rw [hval]; exact hL i hi)) ?_
    · exact (h0.mono hws mo1).mono w2 mo3
    · intro b cs4 _ _ mo4 hb
      rw [hval] at hb
      exact Runs.pure _ _ _ ⟨hv.mono w3 mo4, hb.1, hb.2⟩
  · intro l cs1 _ _ _ hf
    obtain ⟨hl, hf⟩ := forall₂_range hf
    refine Runs.pure _ _ _ ⟨⟨⟨L, h1, h2, fun i hi => ?_, ?_⟩, ?_, ?_⟩, rfl, ?_⟩
    · show L i < 2 ^ P.cap i + Red.pads .one * P.padAt i
      simpa [Red.pads] using hL i hi
    · show val.val < (1 + 1) * P.r
      rw [hs] at h4
      simp only [Red.num] at h4
      omega
    · simpa using hl
    · intro i v x hi hx
      simp only at hi hx
      rw [List.getElem?_map, Option.map_eq_some_iff] at hi
      obtain ⟨p, hp, rfl⟩ := hi
      have hlt := (List.getElem?_eq_some_iff.mp hp).1
      rw [Sim.Ok.get h1 (by omega)] at hx
      rw [← Option.some.inj hx]
      exact (hf i p hp).1
    · intro t ht
      obtain ⟨i, j, p, hi, hj, e, hp, e2⟩ := bits_index P hP l hl (fun i p hp => (hf i p hp).2.1) t ht
      obtain ⟨v, hv, hb⟩ := (hf i p hp).2.2 j hj
      refine ⟨v, by rw [← hv, ← e2], ?_⟩
      rw [← h2, e]
      unfold bit
      rw [testBit_value _ _ _ hLb i j hi (lt_of_lt_of_le hj (hP.cap_le i))]
      exact hb

theorem runs_rkInner (P : Params) (hP : P.Ok) (kv : List Nat) (K : Nat → F) (i : Nat) : (l : List Nat) → (res : Nat) →
    (x : F) → (cs : CS F) → (∀ a ∈ l, a < P.limbs ∧ ∃ v, kv[i - a]? = some v ∧ Has cs v (K (i - a))) →
    Has cs 0 0 → Has cs res x →
    Runs (rkInner P kv i l res) cs (fun o cs' => Has cs' o (x + (l.map (fun a => (P.rAt a : F) * K (i - a))).sum))
  | [], res, x, cs, _, _, hr => Runs.pure _ _ _ (by simpa using hr)
  | [a], res, x, cs, hl, h0, hr => by
    obtain ⟨a1, u, a2, a3⟩ := hl a (by simp)
    unfold rkInner
    refine Runs.bind (Runs.liftM _ _ a2 _) ?_
    rintro _ _ _ _ _ ⟨rfl, rfl⟩
    refine Runs.bind (Runs.liftM _ _ (hP.rAt_get a1) _) ?_
    rintro _ _ _ _ _ ⟨rfl, rfl⟩
    refine (runs_linearCombine _ _ _ _ _ _ _ _ _ _ _ _ _ hr a3 h0 h0).cons (fun o cs' _ _ _ h => ?_)
    convert h using 1
    simp
  | [a, b], res, x, cs, hl, h0, hr => by
    obtain ⟨a1, u, a2, a3⟩ := hl a (by simp)
    obtain ⟨b1, v, b2, b3⟩ := hl b (by simp)
    unfold rkInner
    refine Runs.bind (Runs.liftM _ _ a2 _) ?_
    rintro _ _ _ _ _ ⟨rfl, rfl⟩
    refine Runs.bind (Runs.liftM _ _ (hP.rAt_get a1) _) ?_
    rintro _ _ _ _ _ ⟨rfl, rfl⟩
    refine Runs.bind (Runs.liftM _ _ b2 _) ?_
    rintro _ _ _ _ _ ⟨rfl, rfl⟩
    refine Runs.bind (Runs.liftM _ _ (hP.rAt_get b1) _) ?_
    rintro _ _ _ _ _ ⟨rfl, rfl⟩
    refine (runs_linearCombine _ _ _ _ _ _ _ _ _ _ _ _ _ hr a3 b3 h0).cons (fun o cs' _ _ _ h => ?_)
    convert h using 1
    simp
    ring
  | a :: b :: c :: rest, res, x, cs, hl, h0, hr => by
    obtain ⟨a1, u, a2, a3⟩ := hl a (by simp)
    obtain ⟨b1, v, b2, b3⟩ := hl b (by simp)
    obtain ⟨c1, t, c2, c3⟩ := hl c (by simp)
    unfold rkInner
    refine Runs.bind (Runs.liftM _ _ a2 _) ?_
    rintro _ _ _ _ _ ⟨rfl, rfl⟩
    refine Runs.bind (Runs.liftM _ _ (hP.rAt_get a1) _) ?_
    rintro _ _ _ _ _ ⟨rfl, rfl⟩
    refine Runs.bind (Runs.liftM _ _ b2 _) ?_
    rintro _ _ _ _ _ ⟨rfl, rfl⟩
    refine Runs.bind (Runs.liftM _ _ (hP.rAt_get b1) _) ?_
    rintro _ _ _ _ _ ⟨rfl, rfl⟩
    refine Runs.bind (Runs.liftM _ _ c2 _) ?_
    rintro _ _ _ _ _ ⟨rfl, rfl⟩
    refine Runs.bind (Runs.liftM _ _ (hP.rAt_get c1) _) ?_
    rintro _ _ _ _ _ ⟨rfl, rfl⟩
    refine Runs.bind (runs_linearCombine _ _ _ _ _ _ _ _ _ _ _ _ _ hr a3 b3 c3) ?_
    intro res' cs1 w0 _ mo h
    refine (runs_rkInner P hP kv K i rest res' _ cs1 (fun a ha => ?_) (h0.mono w0 mo) h).cons (fun o cs' _ _ _ h => ?_)
    · obtain ⟨d1, v, d2, d3⟩ := hl a (by simp [ha])
      exact ⟨d1, v, d2, d3.mono w0 mo⟩
    · convert h using 1
      simp
      ring

/-- what is known of a group in the honest run -/
def Grp.Held (cs : CS F) (g : Grp F) (e : Nat × Nat × Nat) : Prop :=
  g.l = (e.1 : F) ∧ g.r = (e.2.1 : F) ∧ Has cs g.lv (e.1 : F) ∧ Has cs g.rv (e.2.1 : F) ∧ g.k = e.2.2

theorem runs_groupStep (P : Params) (a : SimMulVar F) (L R : Nat → Nat) (rkv : List Nat) (i : Nat) (cs : CS F)
    (hi : 2 * i < P.limbsMul) (h0 : Has cs 0 0)
    (hL : a.val.limbs = (List.range P.limbsMul).map (fun i => (L i : F)))
    (ha : ∀ j < P.limbsMul, ∃ v, a.var[j]? = some v ∧ Has cs v (L j : F))
    (hr : ∀ j < P.limbsMul, ∃ v, rkv[j]? = some v ∧ Has cs v (R j : F)) :
    Runs (groupStep P a ((List.range P.limbsMul).map (fun i => (R i : F))) rkv i) cs (fun g cs' => g.Held cs'
      (grp P.bits P.limbsMul L i, grp P.bits P.limbsMul R i, grpSize P.limbsMul i)) := by
  unfold groupStep Grp.Held
  simp only [grp_cast]
  unfold grp grpSize
  by_cases hc : i * 2 + 1 < P.limbsMul
  · rw [if_pos hc, if_pos (by omega), if_pos (by omega), if_pos (by omega)]
    refine Runs.bind (Runs.liftM _ (L (2 * i) : F) (by rw [hL, range_map_get _ _ _ (by omega)]) _) ?_
    rintro _ _ _ _ _ ⟨rfl, rfl⟩
    refine Runs.bind (Runs.liftM _ (L (2 * i + 1) : F) (by rw [hL, range_map_get _ _ _ (by omega)]) _) ?_
    rintro _ _ _ _ _ ⟨rfl, rfl⟩
    obtain ⟨u, u1, u2⟩ := ha (2 * i) (by omega)
    obtain ⟨v, v1, v2⟩ := ha (2 * i + 1) (by omega)
    refine Runs.bind (Runs.liftM _ _ u1 _) ?_
    rintro _ _ _ _ _ ⟨rfl, rfl⟩
    refine Runs.bind (Runs.liftM _ _ v1 _) ?_
    rintro _ _ _ _ _ ⟨rfl, rfl⟩
    refine Runs.bind (runs_linearCombine _ _ _ _ _ _ _ _ _ _ _ _ _ u2 h0 v2 h0) ?_
    intro lv cs1 w0 w1 mo1 hlv
    refine Runs.bind (Runs.liftM _ (R (2 * i) : F) (by rw [range_map_get _ _ _ (by omega)]) _) ?_
    rintro _ _ _ _ _ ⟨rfl, rfl⟩
    refine Runs.bind (Runs.liftM _ (R (2 * i + 1) : F) (by rw [range_map_get _ _ _ (by omega)]) _) ?_
    rintro _ _ _ _ _ ⟨rfl, rfl⟩
    obtain ⟨u', u1', u2'⟩ := hr (2 * i) (by omega)
    obtain ⟨v', v1', v2'⟩ := hr (2 * i + 1) (by omega)
    refine Runs.bind (Runs.liftM _ _ u1' _) ?_
    rintro _ _ _ _ _ ⟨rfl, rfl⟩
    refine Runs.bind (Runs.liftM _ _ v1' _) ?_
    rintro _ _ _ _ _ ⟨rfl, rfl⟩
    refine Runs.bind (runs_linearCombine _ _ _ _ _ _ _ _ _ _ _ _ _ (u2'.mono w0 mo1) (h0.mono w0 mo1)
      (v2'.mono w0 mo1) (h0.mono w0 mo1)) ?_
    intro rv cs2 _ _ mo2 hrv
    refine Runs.pure _ _ _ ⟨rfl, rfl, ?_, ?_, rfl⟩
    · convert hlv.mono w1 mo2 using 1
      ring
    · convert hrv using 1
      ring
  · rw [if_neg hc, if_neg (by omega), if_neg (by omega), if_neg (by omega)]
    refine Runs.bind (Runs.liftM _ (L (2 * i) : F) (by rw [hL, range_map_get _ _ _ (by omega)]) _) ?_
    rintro _ _ _ _ _ ⟨rfl, rfl⟩
    obtain ⟨u, u1, u2⟩ := ha (2 * i) (by omega)
    refine Runs.bind (Runs.liftM _ _ u1 _) ?_
    rintro _ _ _ _ _ ⟨rfl, rfl⟩
    refine Runs.bind (Runs.liftM _ (R (2 * i) : F) (by rw [range_map_get _ _ _ (by omega)]) _) ?_
    rintro _ _ _ _ _ ⟨rfl, rfl⟩
    obtain ⟨u', u1', u2'⟩ := hr (2 * i) (by omega)
    refine Runs.bind (Runs.liftM _ _ u1' _) ?_
    rintro _ _ _ _ _ ⟨rfl, rfl⟩
    exact Runs.pure _ _ _ ⟨rfl, rfl, u2, u2', rfl⟩

theorem Grp.Held.mono {cs cs' : CS F} {pv : List Nat} {g : Grp F} {e : Nat × Nat × Nat} (hw : WF cs)
    (h : Mono cs cs' pv) (hg : g.Held cs e) : g.Held cs' e :=
  ⟨hg.1, hg.2.1, hg.2.2.1.mono hw h, hg.2.2.2.1.mono hw h, hg.2.2.2.2⟩

omit [ScalarRepr F] in
theorem carryGate_wires (P : Params) (k acc lv cv rv o : Nat) :
    ∀ v ∈ (carryGate P k acc lv cv rv o : Gate F).wires, v ∈ [lv, cv, rv] ∨ v = o ∨ v = 0 := by
  intro t ht
  simp [carryGate, rawGate, Gate.wires] at ht ⊢
  tauto

theorem runs_carryLoopC (P : Params) (hP : P.Ok) (hF : 2 ^ (4 * P.bits + 8) ≤ ScalarRepr.order F)
    (gs : List (Grp F)) (ns : List (Nat × Nat × Nat)) (cv cin extra : Nat) (cs : CS F) (h0 : Has cs 0 0)
    (hf : List.Forall₂ (fun g e => g.Held cs e ∧ GrpFits P e) gs ns) (hcv : Has cs cv (cin : F))
    (hc : cin < 2 ^ (5 + P.bits * 2)) (hx : extra < 2 ^ (5 + P.bits * 2))
    (he : gval P.bits (ns.map (fun e => (e.1, e.2.2))) + cin = gval P.bits (ns.map (fun e => (e.2.1, e.2.2))) + extra) :
    Runs (carryLoopC P gs (cin : F) cv extra) cs (fun _ _ => True) := by
  induction gs generalizing ns cv cin extra cs with
  | nil => exact Runs.pure _ _ _ trivial
  | cons g rest ih =>
    cases hf with
    | @cons _ e _ ns' hge htl =>
    obtain ⟨⟨g1, g2, g3, g4, g5⟩, hfit⟩ := hge
    obtain ⟨s1, s2, s3⟩ := carry_step (F := F) P hP hF e hfit cin extra hc hx
    obtain ⟨b1, b2, b3, b4, b5⟩ := carry_bounds P hP e hfit cin extra hc hx
    unfold carryLoopC
    simp only [g1, g2, g5, s1, s2, s3]
    rw [if_pos hfit.2.2]
    simp only [List.map_cons, gval] at he
    have hS : 0 < 2 ^ (P.bits * e.2.2) := by positivity
    have hr := hfit.2.2
    have hord : 2 ^ (5 + P.bits * 2) ≤ 2 ^ (4 * P.bits + 8) := Nat.pow_le_pow_right (by norm_num) (by omega)
    set X := gval P.bits (ns'.map (fun e => (e.1, e.2.2)))
    set Y := gval P.bits (ns'.map (fun e => (e.2.1, e.2.2)))
    set E := e.1 + cin + groupPad P e.2.2 - e.2.1 with hE
    set acc := extra + groupPad P e.2.2 with hacc
    have hcb : E / 2 ^ (P.bits * e.2.2) < 2 ^ (5 + P.bits * 2) :=
      lt_of_le_of_lt (Nat.div_le_div_right (by omega)) b3
    obtain ⟨k1, k2⟩ := (split_iff _ X Y E acc hS).mpr (by omega)
    refine Runs.withWF (fun hws => ?_)
    refine Runs.bind (runs_newGate _ _ _ _ (by simp [g3.1, g4.1, hcv.1]) ?_ ?_) ?_
    · exact fun o => carryGate_wires P _ _ _ _ _ o
    · intro cs1 o w mo ho
      unfold carryGate
      rw [rawGate_holds, ho.2, (g3.mono w mo).2, (g4.mono w mo).2, (hcv.mono w mo).2, ← k1]
      have hd := congrArg (Nat.cast : Nat → F) (Nat.div_add_mod E (2 ^ (P.bits * e.2.2)))
      have hE' : (E : F) = (e.1 : F) + (cin : F) + (groupPad P e.2.2 : F) - (e.2.1 : F) := by
        rw [hE, Nat.cast_sub (by omega)]
        push_cast
        ring
      rw [hE'] at hd
      rw [Nat.cast_add, Nat.cast_mul] at hd
      linear_combination hd
    · intro o cs1 w0 w1 mo ho
      by_cases hrest : rest = []
      · rw [if_pos hrest]
        subst hrest
        cases htl
        refine runs_insertConstantGate _ _ _ ?_
        have : X = Y := rfl
        rw [this] at k2
        rw [← Nat.add_left_cancel k2]
        exact ho
      · rw [if_neg hrest]
        have hval : ScalarRepr.val ((E / 2 ^ (P.bits * e.2.2) : Nat) : F) = E / 2 ^ (P.bits * e.2.2) :=
          ScalarRepr.val_cast _ (by omega)
        refine Runs.bind (runs_rangeCheck _ _ _ _ (by omega) (h0.mono w0 mo) ho (by rw [hval]; exact hcb)) ?_
        intro _ cs2 _ w2 mo2 _
        exact ih ns' _ _ _ cs2 ((h0.mono w0 mo).mono w1 mo2)
          (htl.imp (fun _ _ h => ⟨(h.1.mono w0 mo).mono w1 mo2, h.2⟩)) (ho.mono w1 mo2) hcb b5 k2

theorem forall₂_range_get {α : Type} {R : Nat → α → Prop} {n : Nat} {l : List α} (h : List.Forall₂ R (List.range n) l)
    {i : Nat} (hi : i < n) : ∃ v, l[i]? = some v ∧ R i v := by
  obtain ⟨h1, h2⟩ := forall₂_range h
  obtain ⟨v, hv⟩ := get_lt (show i < l.length by omega)
  exact ⟨v, hv, h2 i v hv⟩

/-- C61: `enforce_zero` on a consistent product divisible by the modulus, with or without debug assertions. -/
theorem C61_enforce_zero_complete (dbg : Bool) (P : Params) (hP : P.Ok)
    (hF : 2 ^ (4 * P.bits + 8) ≤ ScalarRepr.order F) (a : SimMulVar F) (cs : CS F) (h0 : Has cs 0 0)
    (ha : a.Held P cs) (hp : a.val.prod < 32) (hd : P.r ∣ a.val.val) :
    Runs (a.enforceZero dbg P) cs (fun _ _ => True) := by
  have htb := ha.1.toBig hP hp hF
  obtain ⟨⟨L, hL1, hL2, hL3, hL4⟩, hvl, hvar⟩ := ha
  have hr := hP.rPos
  have hm := hP.mul
  have hpos := hP.pos
  have hk : a.val.val / P.r < P.r * 2 ^ 5 := by
    rw [Nat.div_lt_iff_lt_mul hr]
    refine lt_of_le_of_lt hL4 ?_
    have : 0 < P.r ^ 2 := by positivity
    have e : P.r * 2 ^ 5 * P.r = 32 * P.r ^ 2 := by ring
    rw [e]
    exact Nat.mul_lt_mul_of_pos_right hp this
  obtain ⟨K, hK1, hK2, hK3⟩ := k_limbs (F := F) P hP _ hk
  have hKb : ∀ i < P.limbs, K i < 2 ^ P.bits := by
    intro i hi
    refine lt_of_lt_of_le (hK3 i hi) (Nat.pow_le_pow_right (by norm_num) ?_)
    have := hP.top
    split <;> omega
  have hord : 2 ^ P.bits ≤ ScalarRepr.order F := (Nat.pow_le_pow_right (by norm_num) (by omega)).trans hF
  have hrl : P.rLimbs.map (fun (l : Nat) => (l : F)) = (List.range P.limbs).map (fun i => (P.rAt i : F)) := by
    conv_lhs => rw [hP.rLimbs_eq]
    rw [List.map_map]; rfl
  refine Runs.withWF (fun hws => ?_)
  unfold SimMulVar.enforceZero
  rw [if_pos (show a.val.prod < 2 ^ 5 from hp)]
  refine Runs.bind (Runs.liftM _ _ htb _) ?_
  rintro _ _ _ _ _ ⟨rfl, rfl⟩
  rw [if_neg (by rintro ⟨_, h⟩; exact h ⟨Nat.mod_eq_zero_of_dvd hd, hk⟩)]
  simp only [hK1, hrl]
  refine Runs.bind (Runs.mapM _ (fun cs i v => Has cs v (K i : F)) (fun _ _ _ _ hw mo h => h.mono hw mo) _ _ ?_) ?_
  · intro cs1 i hi mo1 hw1
    rw [List.mem_range] at hi
    refine Runs.bind (Runs.liftM _ (K i : F) (by rw [range_map_get _ _ _ hi]) _) ?_
    rintro _ _ _ _ _ ⟨rfl, rfl⟩
    refine Runs.bind (runs_newVar _ _) ?_
    intro v cs3 w2 w3 mo3 hv
    have hval : ScalarRepr.val ((K i : Nat) : F) = K i := ScalarRepr.val_cast _ (lt_of_lt_of_le (hKb i hi) hord)
    refine Runs.bind (runs_rangeCheck v _ _ _ ?_ ((h0.mono hws mo1).mono w2 mo3) hv (by rw [hval]; exact hK3 i hi)) ?_
    · have h1 := hP.top
      have h2 := hP.top2
      split <;> omega
    · intro b cs4 _ _ mo4 _
      exact Runs.pure _ _ _ (hv.mono w3 mo4)
  intro kv cs1 _ w1 mo1 hkv
  refine Runs.bind (Runs.liftM _ _ (schoolbook_eq _ _ _ _ (le_of_eq hm.symm)) _) ?_
  rintro _ _ _ _ _ ⟨rfl, rfl⟩
  have h01 := h0.mono hws mo1
  have hconv : (List.range P.limbsMul).map (conv P.limbs (fun i => (P.rAt i : F)) (fun i => (K i : F)))
      = (List.range P.limbsMul).map (fun i => ((conv P.limbs P.rAt K i : Nat) : F)) :=
    List.map_congr_left (fun i _ => (conv_cast _ _ _ _).symm)
  rw [hconv]
  refine Runs.bind (Runs.mapM _ (fun cs i v => Has cs v ((conv P.limbs P.rAt K i : Nat) : F))
    (fun _ _ _ _ hw mo h => h.mono hw mo) _ _ ?_) ?_
  · intro cs2 i hi mo2 hw2
    refine (runs_rkInner P hP kv (fun j => (K j : F)) i _ _ 0 cs2 ?_ (h01.mono w1 mo2) (h01.mono w1 mo2)).cons ?_
    · intro j hj
      obtain ⟨j1, j2, j3⟩ := lefts_mem hpos hj
      obtain ⟨v, v1, v2⟩ := forall₂_range_get hkv j3
      exact ⟨j1, v, v1, v2.mono w1 mo2⟩
    · intro o cs3 _ _ _ h
      convert h using 1
      rw [conv_cast, conv_lefts _ _ _ _ hpos, zero_add]
  intro rkv cs2 _ w2 mo2 hrkv
  have h02 := h01.mono w1 mo2
  refine Runs.bind (Runs.mapM _ (fun cs i (g : Grp F) => g.Held cs
    (grp P.bits P.limbsMul L i, grp P.bits P.limbsMul (conv P.limbs P.rAt K) i, grpSize P.limbsMul i))
    (fun _ _ _ _ hw mo h => h.mono hw mo) _ _ ?_) ?_
  · intro cs3 i hi mo3 hw3
    rw [List.mem_range, hP.grp] at hi
    refine runs_groupStep P a L _ rkv i cs3 (by omega) (h02.mono w2 mo3) hL1 ?_ ?_
    · intro j hj
      obtain ⟨v, hv⟩ := get_lt (show j < a.var.length by omega)
      exact ⟨v, hv, (((hvar j v _ hv (SimMul.Ok.get hL1 hj)).mono hws mo1).mono w1 mo2).mono w2 mo3⟩
    · intro j hj
      obtain ⟨v, v1, v2⟩ := forall₂_range_get hrkv hj
      exact ⟨v, v1, v2.mono w2 mo3⟩
  intro gs cs3 _ w3 mo3 hgs
  obtain ⟨hgl, hgs⟩ := forall₂_range hgs
  have h03 := h02.mono w2 mo3
  have hfa := forall₂_range_map (R := fun (e : Nat × Nat × Nat) (g : Grp F) => g.Held cs3 e ∧ GrpFits P e)
    (f := fun i => (grp P.bits P.limbsMul L i, grp P.bits P.limbsMul (conv P.limbs P.rAt K) i, grpSize P.limbsMul i))
    hgl (fun i g hg => ⟨hgs i g hg, grp_fits P hP L _ _ hp hL3 (fun i _ => rk_le P hP K hKb i) i (by
      have := (List.getElem?_eq_some_iff.mp hg).1
      rw [hgl, hP.grp] at this
      exact this)⟩)
  have key := runs_carryLoopC P hP hF gs _ zeroVar 0 0 cs3 h03 hfa (by simpa [zeroVar] using h03) (by positivity)
    (by positivity) ?_
  · simpa using key
  · rw [List.map_map, List.map_map, hP.grp, hm]
    have g1 := gval_grp P.bits P.limbs hpos L
    have g2 := gval_grp P.bits P.limbs hpos (conv P.limbs P.rAt K)
    have e1 : ((fun e : Nat × Nat × Nat => (e.1, e.2.2)) ∘ fun i => (grp P.bits (2 * P.limbs - 1) L i,
          grp P.bits (2 * P.limbs - 1) (conv P.limbs P.rAt K) i, grpSize (2 * P.limbs - 1) i))
        = fun i => (grp P.bits (2 * P.limbs - 1) L i, grpSize (2 * P.limbs - 1) i) := rfl
    have e2 : ((fun e : Nat × Nat × Nat => (e.2.1, e.2.2)) ∘ fun i => (grp P.bits (2 * P.limbs - 1) L i,
          grp P.bits (2 * P.limbs - 1) (conv P.limbs P.rAt K) i, grpSize (2 * P.limbs - 1) i))
        = fun i => (grp P.bits (2 * P.limbs - 1) (conv P.limbs P.rAt K) i, grpSize (2 * P.limbs - 1) i) := rfl
    rw [e1, e2, g1, g2, value_conv _ _ _ _ _ (le_refl _), hP.rVal, hK2, ← hm, hL2, Nat.mul_div_cancel' hd]

end Verif.SimFr
