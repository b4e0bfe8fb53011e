import Verif.SimFr.Complete

/-!
C61: the gates do not depend on the values.  Two honest runs, with consistent values and equal counters, produce the
same constraint system, so that keys made from one witness serve for all others.
-/

namespace Verif.SimFr

open Verif.Plonk Verif.Plonk.Spec Finset Spec

variable {F : Type} [Field F]

/-- same variables and counters, consistent values -/
def SimVar.Same (P : Params) (a a' : SimVar F) : Prop :=
  a.var = a'.var ∧ a.val.adds = a'.val.adds ∧ a.val.Ok P ∧ a'.val.Ok P

/-- same variables and counters, consistent values -/
def SimMulVar.Same (P : Params) (a a' : SimMulVar F) : Prop :=
  a.var = a'.var ∧ a.val.prod = a'.val.prod ∧ a.val.Ok P ∧ a'.val.Ok P

theorem uniform_lift2 {α : Type} {ρ : α → α → Prop} {x y : Option α} {a b : α} (hx : x = some a) (hy : y = some b)
    (h : ρ a b) : Uniform (F := F) ρ (liftM x) (liftM y) := by
  subst hx hy
  exact Uniform.pure (F := F) a b h

theorem Uniform.weak {α : Type} {ρ σ : α → α → Prop} {m n : Build F α} (h : Uniform ρ m n) (hs : ∀ a b, ρ a b → σ a b) :
    Uniform σ m n := by
  intro cs cs2 he
  have := h cs cs2 he
  generalize m cs = x at this
  generalize n cs2 = y at this
  cases this with
  | none => exact Option.Rel.none
  | some h => exact Option.Rel.some ⟨hs _ _ h.1, h.2⟩

theorem uniform_newGate (vs : List Nat) (x x' : F) (g : Nat → Gate F) :
    Uniform (· = ·) (newGate vs x g) (newGate vs x' g) := uniform_newVar_gate vs _ _ g

theorem Sim.Ok.get' {P : Params} {a : Sim F} (h : a.Ok P) {i : Nat} (hi : i < P.limbs) : ∃ x, a.limbs[i]? = some x := by
  obtain ⟨L, h1, _⟩ := h
  exact ⟨_, Sim.Ok.get h1 hi⟩

theorem SimMul.Ok.get' {P : Params} {a : SimMul F} (h : a.Ok P) {i : Nat} (hi : i < P.limbsMul) :
    ∃ x, a.limbs[i]? = some x := by
  obtain ⟨L, h1, _⟩ := h
  exact ⟨_, SimMul.Ok.get h1 hi⟩

theorem uniform_allocConstant (P : Params) (val : Sim F) (h : val.Ok P) :
    Uniform (SimVar.Same P) (allocConstant P val) (allocConstant P val) := by
  unfold allocConstant
  refine Uniform.bind (Uniform.mapM _ _ _ ?_) (fun l _ e => ?_)
  · intro i _
    refine Uniform.bind (Uniform.liftM _) (fun x _ e => ?_); subst e
    refine Uniform.bind (uniform_newVar _ _) (fun v _ e => ?_); subst e
    exact Uniform.bind (uniform_insertConstantGate _ _) (fun _ _ _ => Uniform.pure _ _ rfl)
  · subst e
    exact Uniform.pure _ _ ⟨rfl, rfl, h, h⟩

theorem uniform_allocInput (P : Params) (val val' : Sim F) (h : val.Ok P) (h' : val'.Ok P) (ha : val.adds = val'.adds) :
    Uniform (SimVar.Same P) (allocInput P val) (allocInput P val') := by
  unfold allocInput
  refine Uniform.bind (Uniform.mapM _ _ _ ?_) (fun l _ e => ?_)
  · intro i hi
    rw [List.mem_range] at hi
    obtain ⟨x, hx⟩ := h.get' hi
    obtain ⟨x', hx'⟩ := h'.get' hi
    refine Uniform.bind (uniform_lift2 (ρ := fun _ _ => True) hx hx' trivial) (fun _ _ _ => ?_)
    exact uniform_newVar _ _
  · subst e
    exact Uniform.pure _ _ ⟨rfl, ha, h, h'⟩

theorem C61_sub_uniform (P : Params) (hP : P.Ok) (a a' b b' : SimVar F) (ha : a.Same P a') (hb : b.Same P b')
    (hs : b.val.adds = .strict ∨ b.val.adds = .one) : Uniform (SimVar.Same P) (a.sub P b) (a'.sub P b') := by
  obtain ⟨a1, a2, a3, a4⟩ := ha
  obtain ⟨b1, b2, b3, b4⟩ := hb
  obtain ⟨c, hc, hcok, hca, -⟩ := C61_sub P hP a.val b.val a3 b3 hs
  obtain ⟨c', hc', hcok', hca', -⟩ := C61_sub P hP a'.val b'.val a4 b4 (b2 ▸ hs)
  unfold SimVar.sub
  refine Uniform.bind (uniform_lift2 (ρ := fun x y => x = c ∧ y = c') hc hc' ⟨rfl, rfl⟩) ?_
  rintro _ _ ⟨rfl, rfl⟩
  rw [a1, b1]
  refine Uniform.bind (Uniform.mapM _ _ _ ?_) (fun l _ e => ?_)
  · intro i hi
    rw [List.mem_range] at hi
    obtain ⟨x, hx⟩ := hcok.get' hi
    obtain ⟨x', hx'⟩ := hcok'.get' hi
    refine Uniform.bind (uniform_lift2 (ρ := fun _ _ => True) hx hx' trivial) (fun _ _ _ => ?_)
    refine Uniform.bind (Uniform.liftM _) (fun p _ e => ?_); subst e
    refine Uniform.bind (Uniform.liftM _) (fun u _ e => ?_); subst e
    refine Uniform.bind (Uniform.liftM _) (fun v _ e => ?_); subst e
    exact uniform_newGate _ _ _ _
  · subst e
    refine Uniform.pure _ _ ⟨rfl, ?_, hcok, hcok'⟩
    show _ = _
    simp only
    rw [hca, hca', a2]

theorem C61_mul_uniform (P : Params) (hP : P.Ok) (a a' b b' : SimVar F) (ha : a.Same P a') (hb : b.Same P b') :
    Uniform (SimMulVar.Same P) (a.mul P b) (a'.mul P b') := by
  obtain ⟨a1, a2, a3, a4⟩ := ha
  obtain ⟨b1, b2, b3, b4⟩ := hb
  obtain ⟨c, hc, hcok, hca, -⟩ := C61_mul P hP a.val b.val a3 b3
  obtain ⟨c', hc', hcok', hca', -⟩ := C61_mul P hP a'.val b'.val a4 b4
  unfold SimVar.mul
  refine Uniform.bind (uniform_lift2 (ρ := fun x y => x = c ∧ y = c') hc hc' ⟨rfl, rfl⟩) ?_
  rintro _ _ ⟨rfl, rfl⟩
  refine Uniform.bind (Uniform.mapM _ _ _ ?_) (fun l _ e => ?_)
  · intro i hi
    refine Uniform.bind (Uniform.foldlM (ρ := fun (s t : Nat × F) => s.1 = t.1) _ _ _ ?_ _ _ rfl) ?_
    · intro s t j hj e
      obtain ⟨j1, j2, j3⟩ := lefts_mem hP.pos hj
      unfold mulInner
      obtain ⟨x, hx⟩ := a3.get' j1
      obtain ⟨x', hx'⟩ := a4.get' j1
      refine Uniform.bind (uniform_lift2 (ρ := fun _ _ => True) hx hx' trivial) (fun _ _ _ => ?_)
      obtain ⟨x, hx⟩ := b3.get' j3
      obtain ⟨x', hx'⟩ := b4.get' j3
      refine Uniform.bind (uniform_lift2 (ρ := fun _ _ => True) hx hx' trivial) (fun _ _ _ => ?_)
      rw [a1, b1, e]
      refine Uniform.bind (Uniform.liftM _) (fun u _ e => ?_); subst e
      refine Uniform.bind (Uniform.liftM _) (fun v _ e => ?_); subst e
      refine Uniform.bind (uniform_newGate _ _ _ _) (fun o _ e => ?_); subst e
      exact Uniform.pure _ _ rfl
    · intro s t e
      exact Uniform.pure _ _ e
  · subst e
    refine Uniform.pure _ _ ⟨rfl, ?_, hcok, hcok'⟩
    show _ = _
    simp only
    rw [hca, hca', a2, b2]

theorem C61_add_uniform (P : Params) (a a' b b' : SimMulVar F) (ha : a.Same P a') (hb : b.Same P b') :
    Uniform (SimMulVar.Same P) (a.add P b) (a'.add P b') := by
  obtain ⟨a1, a2, a3, a4⟩ := ha
  obtain ⟨b1, b2, b3, b4⟩ := hb
  obtain ⟨c, hc, hcok, hca, -⟩ := C61_add P a.val b.val a3 b3
  obtain ⟨c', hc', hcok', hca', -⟩ := C61_add P a'.val b'.val a4 b4
  unfold SimMulVar.add
  refine Uniform.bind (uniform_lift2 (ρ := fun x y => x = c ∧ y = c') hc hc' ⟨rfl, rfl⟩) ?_
  rintro _ _ ⟨rfl, rfl⟩
  rw [a1, b1]
  refine Uniform.bind (Uniform.mapM _ _ _ ?_) (fun l _ e => ?_)
  · intro i hi
    rw [List.mem_range] at hi
    obtain ⟨x, hx⟩ := hcok.get' hi
    obtain ⟨x', hx'⟩ := hcok'.get' hi
    refine Uniform.bind (uniform_lift2 (ρ := fun _ _ => True) hx hx' trivial) (fun _ _ _ => ?_)
    refine Uniform.bind (Uniform.liftM _) (fun u _ e => ?_); subst e
    refine Uniform.bind (Uniform.liftM _) (fun v _ e => ?_); subst e
    exact uniform_newGate _ _ _ _
  · subst e
    refine Uniform.pure _ _ ⟨rfl, ?_, hcok, hcok'⟩
    show _ = _
    simp only
    rw [hca, hca', a2, b2]

theorem C61_mul_sub_uniform (P : Params) (hP : P.Ok) (a a' : SimMulVar F) (b b' : SimVar F) (ha : a.Same P a')
    (hb : b.Same P b') (hs : b.val.adds.num ≤ 4) : Uniform (SimMulVar.Same P) (a.sub P b) (a'.sub P b') := by
  obtain ⟨a1, a2, a3, a4⟩ := ha
  obtain ⟨b1, b2, b3, b4⟩ := hb
  obtain ⟨c, hc, hcok, hca, -⟩ := C61_mul_sub P hP a.val b.val a3 b3 hs
  obtain ⟨c', hc', hcok', hca', -⟩ := C61_mul_sub P hP a'.val b'.val a4 b4 (b2 ▸ hs)
  unfold SimMulVar.sub
  refine Uniform.bind (uniform_lift2 (ρ := fun x y => x = c ∧ y = c') hc hc' ⟨rfl, rfl⟩) ?_
  rintro _ _ ⟨rfl, rfl⟩
  rw [a1, b1]
  have hm := hP.mul
  have hpos := hP.pos
  refine Uniform.bind (Uniform.mapM _ _ _ ?_) (fun l _ e => ?_)
  · intro i hi
    rw [List.mem_range] at hi
    obtain ⟨x, hx⟩ := hcok.get' (show i < P.limbsMul by omega)
    obtain ⟨x', hx'⟩ := hcok'.get' (show i < P.limbsMul by omega)
    refine Uniform.bind (uniform_lift2 (ρ := fun _ _ => True) hx hx' trivial) (fun _ _ _ => ?_)
    refine Uniform.bind (Uniform.liftM _) (fun p _ e => ?_); subst e
    refine Uniform.bind (Uniform.liftM _) (fun u _ e => ?_); subst e
    refine Uniform.bind (Uniform.liftM _) (fun v _ e => ?_); subst e
    exact uniform_newGate _ _ _ _
  · subst e
    refine Uniform.pure _ _ ⟨rfl, ?_, hcok, hcok'⟩
    show _ = _
    simp only
    rw [hca, hca', a2]

variable [ScalarRepr F]

theorem uniform_allocWitness (P : Params) (val val' : Sim F) (h : val.Ok P) (h' : val'.Ok P)
    (hs : val.adds = .strict) (hs' : val'.adds = .strict) :
    Uniform (fun r r' => SimVar.Same P r.1 r'.1 ∧ r.2 = r'.2) (allocWitness P val) (allocWitness P val') := by
  unfold allocWitness
  rw [if_pos hs, if_pos hs']
  have key : ∀ v : Sim F, v.Ok P → v.adds = .strict → Sim.Ok P { v with adds := .one } := by
    rintro v ⟨L, h1, h2, h3, h4⟩ hs
    refine ⟨L, h1, h2, ?_, ?_⟩
    · intro i hi
      have := h3 i hi
      rw [hs] at this
      simpa [Red.pads] using this
    · rw [hs] at h4
      simp only [Red.num] at h4 ⊢
      omega
  refine Uniform.bind (Uniform.mapM _ _ _ ?_) (fun l _ e => ?_)
  · intro i hi
    rw [List.mem_range] at hi
    obtain ⟨x, hx⟩ := h.get' hi
    obtain ⟨x', hx'⟩ := h'.get' hi
    refine Uniform.bind (uniform_lift2 (ρ := fun _ _ => True) hx hx' trivial) (fun _ _ _ => ?_)
    refine Uniform.bind (uniform_newVar _ _) (fun v _ e => ?_); subst e
    refine Uniform.bind (uniform_rangeCheck _ _) (fun b _ e => ?_); subst e
    exact Uniform.pure _ _ rfl
  · subst e
    exact Uniform.pure _ _ ⟨⟨rfl, rfl, key _ h hs, key _ h' hs'⟩, rfl⟩

theorem uniform_rkInner (P : Params) (kv : List Nat) (i : Nat) : (l : List Nat) → (res : Nat) →
    Uniform (F := F) (· = ·) (rkInner P kv i l res) (rkInner P kv i l res)
  | [], res => Uniform.pure _ _ rfl
  | [a], res => by
    unfold rkInner
    refine Uniform.bind (Uniform.liftM _) (fun u _ e => ?_); subst e
    refine Uniform.bind (Uniform.liftM _) (fun u _ e => ?_); subst e
    exact uniform_linearCombine _ _ _ _ _ _ _ _
  | [a, b], res => by
    unfold rkInner
    refine Uniform.bind (Uniform.liftM _) (fun u _ e => ?_); subst e
    refine Uniform.bind (Uniform.liftM _) (fun u _ e => ?_); subst e
    refine Uniform.bind (Uniform.liftM _) (fun u _ e => ?_); subst e
    refine Uniform.bind (Uniform.liftM _) (fun u _ e => ?_); subst e
    exact uniform_linearCombine _ _ _ _ _ _ _ _
  | a :: b :: c :: rest, res => by
    unfold rkInner
    refine Uniform.bind (Uniform.liftM _) (fun u _ e => ?_); subst e
    refine Uniform.bind (Uniform.liftM _) (fun u _ e => ?_); subst e
    refine Uniform.bind (Uniform.liftM _) (fun u _ e => ?_); subst e
    refine Uniform.bind (Uniform.liftM _) (fun u _ e => ?_); subst e
    refine Uniform.bind (Uniform.liftM _) (fun u _ e => ?_); subst e
    refine Uniform.bind (Uniform.liftM _) (fun u _ e => ?_); subst e
    refine Uniform.bind (uniform_linearCombine _ _ _ _ _ _ _ _) (fun u _ e => ?_); subst e
    exact uniform_rkInner P kv i rest _

/-- same variables; the right sides pass the check of the carry loop -/
def Grp.Same (P : Params) (g g' : Grp F) : Prop :=
  g.lv = g'.lv ∧ g.rv = g'.rv ∧ g.k = g'.k ∧ ScalarRepr.val g.r < groupPad P g.k ∧
    ScalarRepr.val g'.r < groupPad P g'.k

theorem uniform_carryLoopC (P : Params) (gs gs' : List (Grp F)) (h : List.Forall₂ (Grp.Same P) gs gs') (c c' : F)
    (cv extra : Nat) : Uniform (· = ·) (carryLoopC P gs c cv extra) (carryLoopC P gs' c' cv extra) := by
  induction h generalizing c c' cv extra with
  | nil => exact Uniform.pure _ _ rfl
  | @cons g g' rest rest' hg hr ih =>
    obtain ⟨h1, h2, h3, h4, h5⟩ := hg
    unfold carryLoopC
    rw [if_pos h4, if_pos h5]
    simp only [h1, h2, h3]
    refine Uniform.bind (uniform_newGate _ _ _ _) (fun o _ e => ?_); subst e
    by_cases hrest : rest = []
    · have hrest' : rest' = [] := by subst hrest; cases hr; rfl
      rw [if_pos hrest, if_pos hrest']
      exact Uniform.weak (uniform_insertConstantGate _ _) (fun _ _ _ => trivial)
    · have hrest' : rest' ≠ [] := by rintro rfl; cases hr; exact hrest rfl
      rw [if_neg hrest, if_neg hrest']
      refine Uniform.bind (uniform_rangeCheck _ _) (fun _ _ _ => ?_)
      exact Uniform.weak (ih _ _ _ _) (fun _ _ _ => trivial)

theorem uniform_groupStep (P : Params) (hP : P.Ok) (hF : 2 ^ (4 * P.bits + 8) ≤ ScalarRepr.order F)
    (a a' : SimMulVar F) (ha : a.Same P a') (hp : a.val.prod < 32) (R R' : Nat → Nat)
    (hR : ∀ i < P.limbsMul, R i ≤ P.limbs * 2 ^ (2 * P.bits))
    (hR' : ∀ i < P.limbsMul, R' i ≤ P.limbs * 2 ^ (2 * P.bits)) (rkv : List Nat) (i : Nat) (hi : i < P.limbs) :
    Uniform (Grp.Same P) (groupStep P a ((List.range P.limbsMul).map (fun i => (R i : F))) rkv i)
      (groupStep P a' ((List.range P.limbsMul).map (fun i => (R' i : F))) rkv i) := by
  obtain ⟨a1, a2, a3, a4⟩ := ha
  have hm := hP.mul
  obtain ⟨L, hL1, hL2, hL3, -⟩ := a3
  obtain ⟨L', hL1', hL2', hL3', -⟩ := a4
  have key : ∀ (L R : Nat → Nat) (p : Nat), p < 32 → (∀ i < P.limbsMul, L i ≤ p * (P.limbs * 2 ^ (2 * P.bits))) →
      (∀ i < P.limbsMul, R i ≤ P.limbs * 2 ^ (2 * P.bits)) →
      ScalarRepr.val (grp P.bits P.limbsMul (fun i => (R i : F)) i) < groupPad P (grpSize P.limbsMul i) := by
    intro L R p hp hL hR
    have hf := grp_fits P hP L R p hp hL hR i hi
    rw [← grp_cast, (carry_step (F := F) P hP hF _ hf 0 0 (by positivity) (by positivity)).1]
    exact hf.2.2
  have k1 := key L R _ hp hL3 hR
  have k2 := key L' R' _ (a2 ▸ hp) hL3' hR'
  unfold grp grpSize at k1 k2
  unfold groupStep
  rw [a1]
  by_cases hc : i * 2 + 1 < P.limbsMul
  · rw [if_pos hc, if_pos hc]
    rw [if_pos (by omega), if_pos (by omega)] at k1 k2
    refine Uniform.bind (uniform_lift2 (ρ := fun _ _ => True) (SimMul.Ok.get hL1 (by omega))
      (SimMul.Ok.get hL1' (by omega)) trivial) (fun _ _ _ => ?_)
    refine Uniform.bind (uniform_lift2 (ρ := fun _ _ => True) (SimMul.Ok.get hL1 (by omega))
      (SimMul.Ok.get hL1' (by omega)) trivial) (fun _ _ _ => ?_)
    refine Uniform.bind (Uniform.liftM _) (fun u _ e => ?_); subst e
    refine Uniform.bind (Uniform.liftM _) (fun u _ e => ?_); subst e
    refine Uniform.bind (uniform_linearCombine _ _ _ _ _ _ _ _) (fun u _ e => ?_); subst e
    refine Uniform.bind (uniform_lift2 (ρ := fun x y => x = (R (2 * i) : F) ∧ y = (R' (2 * i) : F))
      (range_map_get _ _ _ (by omega)) (range_map_get _ _ _ (by omega)) ⟨rfl, rfl⟩) ?_
    rintro _ _ ⟨rfl, rfl⟩
    refine Uniform.bind (uniform_lift2 (ρ := fun x y => x = (R (2 * i + 1) : F) ∧ y = (R' (2 * i + 1) : F))
      (range_map_get _ _ _ (by omega)) (range_map_get _ _ _ (by omega)) ⟨rfl, rfl⟩) ?_
    rintro _ _ ⟨rfl, rfl⟩
    refine Uniform.bind (Uniform.liftM _) (fun u _ e => ?_); subst e
    refine Uniform.bind (Uniform.liftM _) (fun u _ e => ?_); subst e
    refine Uniform.bind (uniform_linearCombine _ _ _ _ _ _ _ _) (fun u _ e => ?_); subst e
    exact Uniform.pure _ _ ⟨rfl, rfl, rfl, k1, k2⟩
  · rw [if_neg hc, if_neg hc]
    rw [if_neg (by omega), if_neg (by omega)] at k1 k2
    refine Uniform.bind (uniform_lift2 (ρ := fun _ _ => True) (SimMul.Ok.get hL1 (by omega))
      (SimMul.Ok.get hL1' (by omega)) trivial) (fun _ _ _ => ?_)
    refine Uniform.bind (Uniform.liftM _) (fun u _ e => ?_); subst e
    refine Uniform.bind (uniform_lift2 (ρ := fun x y => x = (R (2 * i) : F) ∧ y = (R' (2 * i) : F))
      (range_map_get _ _ _ (by omega)) (range_map_get _ _ _ (by omega)) ⟨rfl, rfl⟩) ?_
    rintro _ _ ⟨rfl, rfl⟩
    refine Uniform.bind (Uniform.liftM _) (fun u _ e => ?_); subst e
    exact Uniform.pure _ _ ⟨rfl, rfl, rfl, k1, k2⟩

theorem Uniform.mapM_rel {α β : Type} {ρ : β → β → Prop} (f g : α → Build F β) (l : List α)
    (h : ∀ a ∈ l, Uniform ρ (f a) (g a)) : Uniform (List.Forall₂ ρ) (l.mapM f) (l.mapM g) := by
  induction l with
  | nil =>
    rw [List.mapM_nil, List.mapM_nil]
    exact Uniform.pure _ _ List.Forall₂.nil
  | cons a l ih =>
    rw [List.mapM_cons, List.mapM_cons]
    refine Uniform.bind (h a (by simp)) (fun b b' e => ?_)
    refine Uniform.bind (ih (fun x hx => h x (by simp [hx]))) (fun bs bs' e' => ?_)
    exact Uniform.pure _ _ (List.Forall₂.cons e e')

/-- C61: the gates of `enforce_zero` do not depend on the values. -/
theorem C61_enforce_zero_uniform (dbg : Bool) (P : Params) (hP : P.Ok)
    (hF : 2 ^ (4 * P.bits + 8) ≤ ScalarRepr.order F) (a a' : SimMulVar F) (ha : a.Same P a')
    (hd : P.r ∣ a.val.val) (hd' : P.r ∣ a'.val.val) :
    Uniform (· = ·) (a.enforceZero dbg P) (a'.enforceZero dbg P) := by
  have hr := hP.rPos
  have hm := hP.mul
  have hpos := hP.pos
  have hrl : P.rLimbs.map (fun (l : Nat) => (l : F)) = (List.range P.limbs).map (fun i => (P.rAt i : F)) := by
    conv_lhs => rw [hP.rLimbs_eq]
    rw [List.map_map]; rfl
  unfold SimMulVar.enforceZero
  by_cases hp : a.val.prod < 2 ^ 5
  · have hp' : a'.val.prod < 2 ^ 5 := ha.2.1 ▸ hp
    rw [if_pos hp, if_pos hp']
    have key : ∀ b : SimMul F, b.Ok P → b.prod < 32 → b.val / P.r < P.r * 2 ^ 5 := by
      rintro b ⟨L, _, _, _, hL4⟩ hp
      rw [Nat.div_lt_iff_lt_mul hr]
      refine lt_of_le_of_lt hL4 ?_
      have : 0 < P.r ^ 2 := by positivity
      have e : P.r * 2 ^ 5 * P.r = 32 * P.r ^ 2 := by ring
      rw [e]
      exact Nat.mul_lt_mul_of_pos_right hp this
    have hk := key _ ha.2.2.1 hp
    have hk' := key _ ha.2.2.2 hp'
    refine Uniform.bind (uniform_lift2 (ρ := fun x y => x = a.val.val ∧ y = a'.val.val)
      (ha.2.2.1.toBig hP hp hF) (ha.2.2.2.toBig hP hp' hF) ⟨rfl, rfl⟩) ?_
    rintro _ _ ⟨rfl, rfl⟩
    rw [if_neg (by rintro ⟨_, h⟩; exact h ⟨Nat.mod_eq_zero_of_dvd hd, hk⟩),
      if_neg (by rintro ⟨_, h⟩; exact h ⟨Nat.mod_eq_zero_of_dvd hd', hk'⟩)]
    obtain ⟨K, hK1, hK2, hK3⟩ := k_limbs (F := F) P hP _ hk
    obtain ⟨K', hK1', hK2', hK3'⟩ := k_limbs (F := F) P hP _ hk'
    have hKb : ∀ K : Nat → Nat, (∀ i < P.limbs, K i < 2 ^ (if i = P.limbs - 1 then P.top + 5 else P.bits)) →
        ∀ i < P.limbs, K i < 2 ^ P.bits := by
      intro K hK3 i hi
      refine lt_of_lt_of_le (hK3 i hi) (Nat.pow_le_pow_right (by norm_num) ?_)
      have := hP.top
      split <;> omega
    simp only [hK1, hK1', hrl]
    refine Uniform.bind (Uniform.mapM _ _ _ ?_) (fun kv _ e => ?_)
    · intro i hi
      rw [List.mem_range] at hi
      refine Uniform.bind (uniform_lift2 (ρ := fun _ _ => True) (range_map_get _ _ _ hi) (range_map_get _ _ _ hi)
        trivial) (fun _ _ _ => ?_)
      refine Uniform.bind (uniform_newVar _ _) (fun v _ e => ?_); subst e
      exact Uniform.bind (uniform_rangeCheck _ _) (fun _ _ _ => Uniform.pure _ _ rfl)
    subst e
    refine Uniform.bind (uniform_lift2
      (ρ := fun x y => x = (List.range P.limbsMul).map (fun i => ((conv P.limbs P.rAt K i : Nat) : F)) ∧
        y = (List.range P.limbsMul).map (fun i => ((conv P.limbs P.rAt K' i : Nat) : F)))
      (schoolbook_eq _ _ _ _ (le_of_eq hm.symm)) (schoolbook_eq _ _ _ _ (le_of_eq hm.symm))
      ⟨List.map_congr_left (fun i _ => (conv_cast _ _ _ _).symm),
        List.map_congr_left (fun i _ => (conv_cast _ _ _ _).symm)⟩) ?_
    rintro _ _ ⟨rfl, rfl⟩
    refine Uniform.bind (Uniform.mapM _ _ _ (fun i _ => uniform_rkInner P kv i _ _)) (fun rkv _ e => ?_)
    subst e
    refine Uniform.bind (Uniform.mapM_rel (ρ := Grp.Same P) _ _ _ (fun i hi => ?_)) (fun gs gs' e => ?_)
    · rw [List.mem_range, hP.grp] at hi
      exact uniform_groupStep P hP hF a a' ha hp _ _ (fun i _ => rk_le P hP K (hKb K hK3) i)
        (fun i _ => rk_le P hP K' (hKb K' hK3') i) rkv i hi
    · exact Uniform.weak (uniform_carryLoopC P gs gs' e _ _ _ _) (fun _ _ _ => trivial)
  · rw [if_neg hp, if_neg (by rw [← ha.2.1]; exact hp)]
    exact Uniform.failure _

end Verif.SimFr
