import Verif.Anon.MerkleCircuit

/-!
Property C62: the circuit that compares the secret key with the group order, api/src/anon_xfr/address_folding.rs:213-340,
for bit vectors of any length and any modulus.
-/

namespace Verif.Anon

open Verif.Plonk Verif.Plonk.Spec

variable {F : Type} [Field F]

/-- the field element of a flag (`BLSScalar::from(flag as u32)`) -/
def bval (b : Bool) : F := if b then 1 else 0

/-- the loop state of address_folding.rs:219-223: two variables and their native values -/
structure CmpState where
  smallerVar : Nat
  meetVar : Nat
  smaller : Bool
  meet : Bool

/-- the gate of address_folding.rs:248-260 -/
def smallerGate (meetVar bitVar smallerVar o : Nat) : Gate F :=
  { w0 := meetVar, w1 := bitVar, w2 := smallerVar, w3 := 0, w4 := o, q1 := -1, q2 := -1, q3 := 1, q4 := 0
    qm1 := 1, qm2 := 0, qc := 1, qecc := 0, qh1 := 0, qh2 := 0, qh3 := 0, qh4 := 0, qo := 1 }

/-- the gate of address_folding.rs:275-287 -/
def meetGate1 (meetVar bitVar o : Nat) : Gate F :=
  { w0 := meetVar, w1 := bitVar, w2 := 0, w3 := 0, w4 := o, q1 := 0, q2 := -1, q3 := 0, q4 := 0
    qm1 := 1, qm2 := 0, qc := 1, qecc := 0, qh1 := 0, qh2 := 0, qh3 := 0, qh4 := 0, qo := 1 }

/-- the gate of address_folding.rs:302-314 -/
def meetGate0 (meetVar bitVar o : Nat) : Gate F :=
  { w0 := meetVar, w1 := bitVar, w2 := 0, w3 := 0, w4 := o, q1 := 1, q2 := 1, q3 := 0, q4 := 0
    qm1 := -1, qm2 := 0, qc := 0, qecc := 0, qh1 := 0, qh2 := 0, qh3 := 0, qh4 := 0, qo := 1 }

/-- the gate of address_folding.rs:327-339 -/
def bothGate (smallerVar meetVar : Nat) : Gate F :=
  { w0 := smallerVar, w1 := meetVar, w2 := 0, w3 := 0, w4 := 0, q1 := 0, q2 := 0, q3 := 0, q4 := 0
    qm1 := -1, qm2 := 0, qc := 1, qecc := 0, qh1 := 0, qh2 := 0, qh3 := 0, qh4 := 0, qo := 0 }

/-- a new variable and a gate.  The code pushes the wires directly, without the check that the variables exist; the model
checks it, and `C62_comparison_complete` shows that the check does not fail. -/
def gateVar (vs : List Nat) (x : F) (g : Nat → Gate F) : Build F Nat := do
  assertVars vs
  let o ← newVar (fun _ => x)
  pushGate (g o)
  pure o

/-- the loop body, address_folding.rs:233-318, on ((bit variable, bit), modulus bit) -/
def cmpStep (s : CmpState) (x : (Nat × Bool) × Bool) : Build F CmpState :=
  if x.2 then do
    let smaller := s.smaller || (!x.1.2 && !s.meet)
    let sv ← gateVar [s.meetVar, x.1.1, s.smallerVar] (bval smaller) (smallerGate s.meetVar x.1.1 s.smallerVar)
    let meet := s.meet || !x.1.2
    let mv ← gateVar [s.meetVar, x.1.1] (bval meet) (meetGate1 s.meetVar x.1.1)
    pure ⟨sv, mv, smaller, meet⟩
  else do
    let meet := s.meet || x.1.2
    let mv ← gateVar [s.meetVar, x.1.1] (bval meet) (meetGate0 s.meetVar x.1.1)
    pure ⟨s.smallerVar, mv, s.smaller, meet⟩

/-- models address_folding.rs:213-340: `bitVars` are the variables and `bits` the native bits of the secret key, least
significant first; the loop runs from the most significant bit down -/
def lessThanModulus (bitVars : List Nat) (bits modulus : List Bool) : Build F Unit :=
  if bits.length ≠ modulus.length then failure
  else do
    let s ← ((bitVars.zip bits).zip modulus).reverse.foldlM cmpStep ⟨zeroVar, zeroVar, false, false⟩
    assertVars [s.smallerVar, s.meetVar]
    pushGate (bothGate s.smallerVar s.meetVar)

namespace Spec

/-- the number with the given bits, least significant first -/
def leNat : List Bool → Nat
  | [] => 0
  | b :: bs => (if b then 1 else 0) + 2 * leNat bs

end Spec

open Spec

/-- the number with the given bits, most significant first -/
def beNat (l : List Bool) : Nat := l.foldl (fun a b => 2 * a + if b then 1 else 0) 0

theorem beNat_snoc (l : List Bool) (b : Bool) : beNat (l ++ [b]) = 2 * beNat l + if b then 1 else 0 := by
  simp [beNat]

theorem beNat_reverse (l : List Bool) : beNat l.reverse = leNat l := by
  induction l with
  | nil => rfl
  | cons b l ih => rw [List.reverse_cons, beNat_snoc, ih, leNat]; omega

theorem sound_gateVar (vs : List Nat) (x : F) (g : Nat → Gate F)
    (hsub : ∀ o, ∀ v ∈ (g o).wires, v ∈ vs ∨ v = o ∨ v = 0) :
    Sound (gateVar vs x g) (fun w o => Gate.Holds (g o) w 0) := sound_newVar_gate vs _ g hsub

theorem runs_gateVar (vs : List Nat) (x : F) (g : Nat → Gate F) (cs : CS F)
    (hvs : ∀ v ∈ vs, v < cs.numVars) (hsub : ∀ o, ∀ v ∈ (g o).wires, v ∈ vs ∨ v = o ∨ v = 0)
    (hh : ∀ (o : Nat) (w : Nat → F), (∀ v ∈ vs, w v = cs.value v) → w o = x → Gate.Holds (g o) w 0) :
    Runs (gateVar vs x g) cs (fun o cs' => Has cs' o x) := runs_newVar_gate vs (fun _ => x) g cs hvs hsub hh

theorem uniform_gateVar (vs : List Nat) (x x' : F) (g : Nat → Gate F) :
    Uniform (· = ·) (gateVar vs x g) (gateVar vs x' g) := uniform_newVar_gate vs _ _ g

/-- the flags after the bits `c` of the key and `m` of the modulus, most significant first -/
def CmpInv (w : Nat → F) (c m : List Bool) (s : CmpState) : Prop :=
  w s.smallerVar = bval (decide (beNat c < beNat m)) ∧ w s.meetVar = bval (decide (beNat c ≠ beNat m))

theorem cmp_step (c m : List Bool) (b k : Bool) :
    (beNat (c ++ [b]) < beNat (m ++ [k]) ↔ beNat c < beNat m ∨ (beNat c = beNat m ∧ b = false ∧ k = true)) ∧
    (beNat (c ++ [b]) ≠ beNat (m ++ [k]) ↔ beNat c ≠ beNat m ∨ b ≠ k) := by
  rw [beNat_snoc, beNat_snoc]
  cases b <;> cases k <;> simp <;> omega

theorem sound_cmpStep (s : CmpState) (v : Nat) (b0 k : Bool) : Sound (cmpStep s ((v, b0), k) : Build F CmpState)
    (fun w s' => ∀ c m b, w v = bval b → CmpInv w c m s → CmpInv w (c ++ [b]) (m ++ [k]) s') := by
  unfold cmpStep
  cases k with
  | true =>
    simp only [if_true]
    refine Sound.bind (sound_gateVar _ _ _ (by intro o x; simp [Gate.wires, smallerGate]; tauto)) (fun sv => ?_)
    refine Sound.bind (sound_gateVar _ _ _ (by intro o x; simp [Gate.wires, meetGate1]; tauto)) (fun mv => ?_)
    refine Sound.pure _ _ ?_
    intro w h2 h1 c m b hv ⟨i1, i2⟩
    simp only [Gate.Holds, smallerGate, meetGate1] at h1 h2
    have e1 : w sv = w s.smallerVar + (1 - w s.meetVar) * (1 - w v) := by linear_combination -h1
    have e2 : w mv = 1 - w v + w s.meetVar * w v := by linear_combination -h2
    refine ⟨?_, ?_⟩
    · rw [e1, i1, i2, hv]
      simp only [(cmp_step c m b true).1]
      by_cases h : beNat c = beNat m
      · cases b <;> simp [bval, h]
      · cases b <;> simp [bval, h]
    · rw [e2, i2, hv]
      simp only [(cmp_step c m b true).2]
      by_cases h : beNat c = beNat m
      · cases b <;> simp [bval, h]
      · cases b <;> simp [bval, h]
  | false =>
    simp only [Bool.false_eq_true, if_false]
    refine Sound.bind (sound_gateVar _ _ _ (by intro o x; simp [Gate.wires, meetGate0]; tauto)) (fun mv => ?_)
    refine Sound.pure _ _ ?_
    intro w h2 c m b hv ⟨i1, i2⟩
    simp only [Gate.Holds, meetGate0] at h2
    have e2 : w mv = w s.meetVar + w v - w s.meetVar * w v := by linear_combination -h2
    refine ⟨?_, ?_⟩
    · simp only [i1, (cmp_step c m b false).1]
      simp
    · rw [e2, i2, hv]
      simp only [(cmp_step c m b false).2]
      by_cases h : beNat c = beNat m
      · cases b <;> simp [bval, h]
      · cases b <;> simp [bval, h]

omit [Field F] in
theorem forall₂_zip {R : Nat → Bool → Prop} {vs : List Nat} {c : List Bool} (h : List.Forall₂ R vs c) :
    ∀ (bits modulus : List Bool), bits.length = vs.length → modulus.length = vs.length →
      List.Forall₂ (fun (x : (Nat × Bool) × Bool) b => R x.1.1 b) ((vs.zip bits).zip modulus) c := by
  induction h with
  | nil => intro _ _ _ _; exact .nil
  | cons a _ ih =>
    intro bits modulus h1 h2
    cases bits with
    | nil => simp at h1
    | cons b bits => cases modulus with
      | nil => simp at h2
      | cons k modulus => exact .cons a (ih bits modulus (by simpa using h1) (by simpa using h2))

/-- C62: whatever native bits the builder was given, an assignment that satisfies the circuit and gives the bit variables
the bits `c` proves `c < modulus` as integers. -/
theorem C62_comparison_sound (bitVars : List Nat) (bits modulus : List Bool) (hlen : bitVars.length = modulus.length) :
    Sound (lessThanModulus bitVars bits modulus : Build F Unit) (fun w _ => w 0 = 0 → ∀ c,
      List.Forall₂ (fun v b => w v = if b then 1 else 0) bitVars c → leNat c < leNat modulus) := by
  unfold lessThanModulus
  refine Sound.ite (fun _ => Sound.failure _) (fun hl => ?_)
  push Not at hl
  refine Sound.bind (Sound.foldlM cmpStep (fun w pre s => ∀ c m, w 0 = 0 →
    List.Forall₂ (fun x b => w x.1.1 = bval b) pre c → m = pre.map (·.2) → CmpInv w c m s) _ _ ?_) (fun s => ?_)
  · rintro pre s ⟨⟨v, b0⟩, k⟩ -
    refine (sound_cmpStep s v b0 k).cons ?_
    intro w s' h hI c m h0 hc hm
    obtain ⟨c1, c2, f1, f2, rfl⟩ := forall₂_split hc
    cases f2 with
    | @cons _ b _ _ hb hnil =>
    cases hnil
    subst hm
    rw [List.map_append]
    exact h c1 _ b hb (hI c1 _ h0 f1 rfl)
  · refine (sound_pushGate_after _ (bothGate s.smallerVar s.meetVar) (by
      simp [Gate.wires, bothGate])).cons ?_
    intro w _ hg hI h0 c hc
    have hz := forall₂_zip (R := fun v b => w v = bval b) hc bits modulus (by omega) (by omega)
    have := hI (fun c m h0 hc hm => by cases hc; subst hm; simp [CmpInv, bval, zeroVar, h0, beNat]) c.reverse
      modulus.reverse h0 (List.rel_reverse hz) (by
        rw [List.map_reverse]
        congr 1
        exact (List.map_snd_zip (by simp; omega)).symm)
    obtain ⟨i1, i2⟩ := this
    rw [beNat_reverse, beNat_reverse] at i1
    by_contra hlt
    simp only [Gate.Holds, bothGate] at hg
    rw [i1] at hg
    simp [bval, hlt] at hg

/-! ### Completeness -/

/-- the flags and their variables agree -/
structure HasCmp (cs : CS F) (c m : List Bool) (s : CmpState) : Prop where
  sv : Has cs s.smallerVar (bval s.smaller)
  mv : Has cs s.meetVar (bval s.meet)
  smaller : s.smaller = decide (beNat c < beNat m)
  meet : s.meet = decide (beNat c ≠ beNat m)

/-- the loop invariant -/
def HasCmpL (cs : CS F) (pre : List ((Nat × Bool) × Bool)) (s : CmpState) : Prop :=
  HasCmp cs (pre.map (fun x => x.1.2)) (pre.map (fun x => x.2)) s

theorem HasCmp.mono {cs cs' : CS F} {pv : List Nat} (hw : WF cs) (h : Mono cs cs' pv) {c m : List Bool} {s : CmpState}
    (hn : HasCmp cs c m s) : HasCmp cs' c m s := ⟨hn.sv.mono hw h, hn.mv.mono hw h, hn.smaller, hn.meet⟩

theorem runs_cmpStep (s : CmpState) (v : Nat) (b k : Bool) (c m : List Bool) (cs : CS F) (h0 : Has cs 0 0)
    (hv : Has cs v (bval b)) (hs : HasCmp cs c m s) :
    Runs (cmpStep s ((v, b), k)) cs (fun s' cs' => HasCmp cs' (c ++ [b]) (m ++ [k]) s') := by
  obtain ⟨i1, i2, i3, i4⟩ := hs
  unfold cmpStep
  cases k with
  | true =>
    simp only [if_true]
    refine Runs.bind (runs_gateVar _ _ _ cs (by simp [i1.1, i2.1, hv.1])
      (by intro o x; simp [Gate.wires, smallerGate]; tauto) ?_) ?_
    · intro o w hw ho
      simp only [Gate.Holds, smallerGate]
      rw [ho, hw s.meetVar (by simp), hw v (by simp), hw s.smallerVar (by simp), i1.2, i2.2, hv.2, i3, i4]
      by_cases h : beNat c = beNat m
      · cases b <;> simp [bval, h]
      · by_cases h' : beNat c < beNat m <;> cases b <;> simp [bval, h, h']
    intro sv cs1 w0 w1 m1 hsv
    adv w0 m1
    refine Runs.bind (runs_gateVar _ _ _ cs1 (by simp [i2.1, hv.1])
      (by intro o x; simp [Gate.wires, meetGate1]; tauto) ?_) ?_
    · intro o w hw ho
      simp only [Gate.Holds, meetGate1]
      rw [ho, hw s.meetVar (by simp), hw v (by simp), i2.2, hv.2]
      cases s.meet <;> cases b <;> simp [bval]
    intro mv cs2 _ w2 m2 hmv
    adv w1 m2
    refine Runs.pure _ _ _ ⟨hsv, hmv, ?_, ?_⟩
    · simp only [i3, i4, (cmp_step c m b true).1]
      by_cases h : beNat c = beNat m
      · cases b <;> simp [h]
      · cases b <;> simp [h]
    · simp only [i4, (cmp_step c m b true).2]
      cases b <;> simp
  | false =>
    simp only [Bool.false_eq_true, if_false]
    refine Runs.bind (runs_gateVar _ _ _ cs (by simp [i2.1, hv.1])
      (by intro o x; simp [Gate.wires, meetGate0]; tauto) ?_) ?_
    · intro o w hw ho
      simp only [Gate.Holds, meetGate0]
      rw [ho, hw s.meetVar (by simp), hw v (by simp), i2.2, hv.2]
      cases s.meet <;> cases b <;> simp [bval]
    intro mv cs2 w1 w2 m2 hmv
    adv w1 m2
    refine Runs.pure _ _ _ ⟨i1, hmv, ?_, ?_⟩
    · simp only [i3, (cmp_step c m b false).1]
      simp
    · simp only [i4, (cmp_step c m b false).2]
      cases b <;> simp

/-- C62: for a key below the modulus, of the same number of bits, the builder does not panic and its witness satisfies the
circuit. -/
theorem C62_comparison_complete (bitVars : List Nat) (bits modulus : List Bool) (cs : CS F)
    (hbits : List.Forall₂ (fun v b => Has cs v (if b then 1 else 0)) bitVars bits) (hlen : bits.length = modulus.length)
    (hlt : leNat bits < leNat modulus) (h0 : Has cs 0 0) :
    Runs (lessThanModulus bitVars bits modulus) cs (fun _ _ => True) := by
  refine Runs.withWF (fun hwf => ?_)
  unfold lessThanModulus
  rw [if_neg (by simp [hlen])]
  have hz := forall₂_zip (R := fun v b => Has cs v (bval b)) hbits bits modulus hbits.length_eq.symm
    (by rw [← hlen]; exact hbits.length_eq.symm)
  have hall : ∀ x ∈ ((bitVars.zip bits).zip modulus).reverse, Has cs x.1.1 (bval x.1.2) := by
    clear hz
    suffices H : ∀ (vs : List Nat) (bs : List Bool) (md : List Bool), List.Forall₂ (fun v b => Has cs v (bval b)) vs bs →
        ∀ x ∈ (vs.zip bs).zip md, Has cs x.1.1 (bval x.1.2) by
      intro x hx
      exact H bitVars bits modulus hbits x (List.mem_reverse.mp hx)
    intro vs bs md hf
    induction hf generalizing md with
    | nil => simp
    | cons a _ ih =>
      intro x hx
      cases md with
      | nil => simp at hx
      | cons k md =>
        rw [List.zip_cons_cons, List.zip_cons_cons, List.mem_cons] at hx
        rcases hx with rfl | hx
        · exact a
        · exact ih md x hx
  have e1 : (((bitVars.zip bits).zip modulus).reverse.map (·.1.2)) = bits.reverse := by
    rw [List.map_reverse]
    congr 1
    have : ((bitVars.zip bits).zip modulus).map (·.1.2) = (((bitVars.zip bits).zip modulus).map Prod.fst).map Prod.snd := by
      simp
    have hl := hbits.length_eq
    rw [this, List.map_fst_zip (by simp; omega), List.map_snd_zip (by omega)]
  have e2 : (((bitVars.zip bits).zip modulus).reverse.map (·.2)) = modulus.reverse := by
    rw [List.map_reverse]
    congr 1
    have hl := hbits.length_eq
    exact List.map_snd_zip (by simp; omega)
  refine Runs.bind (Runs.foldlM cmpStep HasCmpL (fun cs cs' pre a hw mo h => HasCmp.mono hw mo h) _ _ cs ?_ ?_) ?_
  · exact ⟨by simpa [bval, zeroVar] using h0, by simpa [bval, zeroVar] using h0, by simp, by simp⟩
  · rintro cs1 pre s ⟨⟨v, b⟩, k⟩ post mo e w1 hs
    have hx := hall ((v, b), k) (by rw [e]; simp)
    unfold HasCmpL at hs ⊢
    rw [List.map_append, List.map_append]
    exact runs_cmpStep s v b k _ _ cs1 (h0.mono hwf mo) (hx.mono hwf mo) hs
  · intro s cs1 w0 w1 m1 hs
    unfold HasCmpL at hs
    rw [e1, e2] at hs
    obtain ⟨i1, i2, i3, i4⟩ := hs
    rw [beNat_reverse, beNat_reverse] at i3 i4
    refine Runs.bind (runs_assertVars _ cs1 (by simp [i1.1, i2.1])) ?_
    rintro _ cs2 _ _ _ rfl
    refine runs_pushGate _ _ ?_ ?_
    · simp [Gate.wires, bothGate, i1.1, i2.1, (h0.mono w0 m1).1]
    · simp only [Gate.Holds, bothGate]
      rw [i1.2, i2.2, i3, i4]
      have : leNat bits ≠ leNat modulus := by omega
      simp [bval, hlt, this]

/-- C62: the circuit does not depend on the native bits. -/
theorem C62_comparison_uniform (bitVars : List Nat) (bits bits' modulus : List Bool) (h : bits.length = bits'.length) :
    Uniform (F := F) (· = ·) (lessThanModulus bitVars bits modulus) (lessThanModulus bitVars bits' modulus) := by
  unfold lessThanModulus
  by_cases hl : bits.length = modulus.length
  swap
  · rw [if_pos hl, if_pos (by rw [← h]; exact hl)]
    exact Uniform.failure _
  rw [if_neg (by simp [hl]), if_neg (by simp [← h, hl])]
  have hf : List.Forall₂ (fun x y : (Nat × Bool) × Bool => x.1.1 = y.1.1 ∧ x.2 = y.2) ((bitVars.zip bits).zip modulus).reverse
      ((bitVars.zip bits').zip modulus).reverse := by
    refine List.rel_reverse ?_
    clear hl
    induction bitVars generalizing bits bits' modulus with
    | nil => exact .nil
    | cons v vs ih => cases bits with
      | nil => cases bits' with
        | nil => exact .nil
        | cons => simp at h
      | cons b bits => cases bits' with
        | nil => simp at h
        | cons b' bits' => cases modulus with
          | nil => exact .nil
          | cons k modulus => exact .cons ⟨rfl, rfl⟩ (ih bits bits' modulus (by simpa using h))
  refine Uniform.bind (ρ := fun s t : CmpState => s.smallerVar = t.smallerVar ∧ s.meetVar = t.meetVar) ?_ ?_
  · generalize ((bitVars.zip bits).zip modulus).reverse = l1, ((bitVars.zip bits').zip modulus).reverse = l2 at hf
    suffices H : ∀ s t : CmpState, s.smallerVar = t.smallerVar ∧ s.meetVar = t.meetVar →
        Uniform (F := F) (fun s t : CmpState => s.smallerVar = t.smallerVar ∧ s.meetVar = t.meetVar)
          (l1.foldlM cmpStep s) (l2.foldlM cmpStep t) from H _ _ ⟨rfl, rfl⟩
    induction hf with
    | nil => intro s t h; exact Uniform.pure _ _ h
    | @cons x y _ _ hxy _ ih =>
      intro s t hst
      obtain ⟨⟨v, b⟩, k⟩ := x
      obtain ⟨⟨v', b'⟩, k'⟩ := y
      obtain ⟨sv, mv, _, _⟩ := s
      obtain ⟨sv', mv', _, _⟩ := t
      simp only at hxy hst
      obtain ⟨rfl, rfl⟩ := hxy
      obtain ⟨rfl, rfl⟩ := hst
      rw [List.foldlM_cons, List.foldlM_cons]
      refine Uniform.bind (ρ := fun s t : CmpState => s.smallerVar = t.smallerVar ∧ s.meetVar = t.meetVar) ?_
        (fun s t h => ih s t h)
      unfold cmpStep
      cases k with
      | true =>
        simp only [if_true]
        refine Uniform.bind (uniform_gateVar _ _ _ _) (fun a _ e => ?_); subst e
        refine Uniform.bind (uniform_gateVar _ _ _ _) (fun a _ e => ?_); subst e
        exact Uniform.pure _ _ ⟨rfl, rfl⟩
      | false =>
        simp only [Bool.false_eq_true, if_false]
        refine Uniform.bind (uniform_gateVar _ _ _ _) (fun a _ e => ?_); subst e
        exact Uniform.pure _ _ ⟨rfl, rfl⟩
  · rintro ⟨sv, mv, _, _⟩ ⟨sv', mv', _, _⟩ ⟨h1, h2⟩
    simp only at h1 h2
    subst h1 h2
    exact Uniform.bind (uniform_assertVars _) (fun _ _ _ => uniform_pushGate _)

/-- the hypotheses are met: the key 2 = 10 and the modulus 3 = 11 in a fresh system, where variable 1 holds one -/
example : ∃ cs, lessThanModulus [0, 1] [false, true] [true, true] (CS.new : CS (ZMod 101)) = some ((), cs) ∧ HSat cs ∧
    leNat [false, true] = 2 ∧ leNat [true, true] = 3 := by
  obtain ⟨_, cs, _, e, _, s, _⟩ := C62_comparison_complete [0, 1] [false, true] [true, true] (CS.new : CS (ZMod 101))
    (.cons (by simpa using new_has.1) (.cons (by simpa using new_has.2) .nil)) rfl (by decide) new_has.1 WF.new new_hsat
  exact ⟨cs, e, s, rfl, rfl⟩

end Verif.Anon
