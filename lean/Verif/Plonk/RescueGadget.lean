import Verif.Plonk.Arith
import Verif.Rescue.Props

/-!
Property C49: the Rescue circuit computes the Rescue permutation.
-/

namespace Verif.Plonk

open Spec

variable {F : Type} [Field F]

/-- allocate an output variable whose value makes the gate hold -/
theorem runs_newVar_gate (vs : List Nat) (f : (Nat → F) → F) (g : Nat → Gate F) (cs : CS F)
    (hvs : ∀ v ∈ vs, v < cs.numVars) (hsub : ∀ o, ∀ v ∈ (g o).wires, v ∈ vs ∨ v = o ∨ v = 0)
    (hh : ∀ (o : Nat) (w : Nat → F), (∀ v ∈ vs, w v = cs.value v) → w o = f cs.value → Gate.Holds (g o) w 0) :
    Runs (do assertVars vs; let o ← newVar f; pushGate (g o); pure o : Build F Nat) cs
      (fun o cs' => Has cs' o (f cs.value)) := by
  refine Runs.bind (runs_assertVars _ cs hvs) ?_
  rintro _ cs1 _ _ _ rfl
  refine Runs.bind (runs_newVar _ _) ?_
  intro o cs2 w1 w2 mo ho
  refine Runs.bind (runs_pushGate _ _ ?_ ?_) ?_
  · intro v hv
    rcases hsub o v hv with h | rfl | rfl
    · exact lt_of_lt_of_le (hvs v h) mo.vars
    · exact ho.1
    · have := w2.two; omega
  · exact hh o _ (fun v hv => value_mono w1 mo v (hvs v hv)) ho.2
  · intro _ cs3 w2 _ mo2 _
    exact Runs.pure _ _ _ (ho.mono w2 mo2)

theorem uniform_newVar_gate (vs : List Nat) (f f' : (Nat → F) → F) (g : Nat → Gate F) :
    Uniform (· = ·) (do assertVars vs; let o ← newVar f; pushGate (g o); pure o : Build F Nat)
      (do assertVars vs; let o ← newVar f'; pushGate (g o); pure o) :=
  Uniform.bind (uniform_assertVars _) (fun _ _ _ => Uniform.bind (uniform_newVar _ _) (fun o _ e => by
    subst e
    exact Uniform.bind (uniform_pushGate _) (fun _ _ _ => Uniform.pure _ _ rfl)))

/-- the values of a state of variables -/
def stVal (w : Nat → F) (v : SV) : St F := (w v.1, w v.2.1, w v.2.2.1, w v.2.2.2)

/-- the stored values of a state of variables -/
def HasSt (cs : CS F) (v : SV) (s : St F) : Prop :=
  Has cs v.1 s.1 ∧ Has cs v.2.1 s.2.1 ∧ Has cs v.2.2.1 s.2.2.1 ∧ Has cs v.2.2.2 s.2.2.2

theorem HasSt.mono {cs cs' : CS F} {pv : List Nat} (hw : WF cs) (h : Mono cs cs' pv) {v : SV} {s : St F}
    (hv : HasSt cs v s) : HasSt cs' v s :=
  ⟨hv.1.mono hw h, hv.2.1.mono hw h, hv.2.2.1.mono hw h, hv.2.2.2.mono hw h⟩

/-! ### Single gates -/

theorem sound_addConstant (v : Nat) (c : F) : Sound (addConstant v c) (fun w o => w o = w v + c) :=
  (sound_newVar_gate [v] _ _ (by intro o x; simp [Gate.wires]; tauto)).cons (fun w o h => by
    simp only [Gate.Holds] at h; linear_combination -h)

theorem sound_addLinearOp (v : SV) (k : St F) (c : F) :
    Sound (addLinearOp v k c) (fun w o => w o = Rescue.rowOp k (stVal w v) c) :=
  (sound_newVar_gate [v.1, v.2.1, v.2.2.1, v.2.2.2] _ _ (by intro o x; simp [Gate.wires]; tauto)).cons (fun w o h => by
    simp only [Gate.Holds] at h; simp only [Rescue.rowOp, stVal]; linear_combination -h)

theorem sound_addNonLinearOp (v : SV) (k : St F) (c : F) :
    Sound (addNonLinearOp v k c) (fun w o => w o = Rescue.rowOp k (Rescue.powVector (stVal w v) 5) c) :=
  (sound_newVar_gate [v.1, v.2.1, v.2.2.1, v.2.2.2] _ _ (by intro o x; simp [Gate.wires]; tauto)).cons (fun w o h => by
    simp only [Gate.Holds] at h; simp only [Rescue.rowOp, Rescue.powVector, stVal]; linear_combination -h)

theorem sound_addPow5Inv (e v : Nat) : Sound (addPow5Inv e v : Build F Nat) (fun w o => w o ^ 5 = w v) :=
  (sound_newVar_gate [v] _ _ (by intro o x; simp [Gate.wires]; tauto)).cons (fun w o h => by
    simp only [Gate.Holds] at h; linear_combination h)

theorem runs_addConstant (v : Nat) (c x : F) (cs : CS F) (h : Has cs v x) :
    Runs (addConstant v c) cs (fun o cs' => Has cs' o (x + c)) := by
  have := runs_newVar_gate [v] (fun w => w v + c) (fun o =>
    { w0 := v, w1 := 0, w2 := 0, w3 := 0, w4 := o, q1 := 1, q2 := 0, q3 := 0, q4 := 0, qm1 := 0, qm2 := 0
      qc := c, qecc := 0, qh1 := 0, qh2 := 0, qh3 := 0, qh4 := 0, qo := 1 }) cs (by simp [h.1])
      (by intro o x; simp [Gate.wires]; tauto) (by
        intro o w hv ho
        simp only [Gate.Holds]
        rw [ho, hv v (by simp)]; ring)
  simp only [h.2] at this
  exact this

theorem runs_addLinearOp (v : SV) (k s : St F) (c : F) (cs : CS F) (h : HasSt cs v s) :
    Runs (addLinearOp v k c) cs (fun o cs' => Has cs' o (Rescue.rowOp k s c)) := by
  have := runs_newVar_gate [v.1, v.2.1, v.2.2.1, v.2.2.2]
    (fun w => c + k.1 * w v.1 + k.2.1 * w v.2.1 + k.2.2.1 * w v.2.2.1 + k.2.2.2 * w v.2.2.2) (fun o =>
    { w0 := v.1, w1 := v.2.1, w2 := v.2.2.1, w3 := v.2.2.2, w4 := o, q1 := k.1, q2 := k.2.1, q3 := k.2.2.1
      q4 := k.2.2.2, qm1 := 0, qm2 := 0, qc := c, qecc := 0, qh1 := 0, qh2 := 0, qh3 := 0, qh4 := 0, qo := 1 }) cs
      (by simp [h.1.1, h.2.1.1, h.2.2.1.1, h.2.2.2.1])
      (by intro o x; simp [Gate.wires]; tauto) (by
        intro o w hv ho
        simp only [Gate.Holds]
        rw [ho, hv v.1 (by simp), hv v.2.1 (by simp), hv v.2.2.1 (by simp), hv v.2.2.2 (by simp)]; ring)
  simp only [h.1.2, h.2.1.2, h.2.2.1.2, h.2.2.2.2] at this
  exact this

theorem runs_addNonLinearOp (v : SV) (k s : St F) (c : F) (cs : CS F) (h : HasSt cs v s) :
    Runs (addNonLinearOp v k c) cs (fun o cs' => Has cs' o (Rescue.rowOp k (Rescue.powVector s 5) c)) := by
  have := runs_newVar_gate [v.1, v.2.1, v.2.2.1, v.2.2.2]
    (fun w => c + k.1 * w v.1 ^ 5 + k.2.1 * w v.2.1 ^ 5 + k.2.2.1 * w v.2.2.1 ^ 5 + k.2.2.2 * w v.2.2.2 ^ 5) (fun o =>
    { w0 := v.1, w1 := v.2.1, w2 := v.2.2.1, w3 := v.2.2.2, w4 := o, q1 := 0, q2 := 0, q3 := 0, q4 := 0
      qm1 := 0, qm2 := 0, qc := c, qecc := 0, qh1 := k.1, qh2 := k.2.1, qh3 := k.2.2.1, qh4 := k.2.2.2, qo := 1 }) cs
      (by simp [h.1.1, h.2.1.1, h.2.2.1.1, h.2.2.2.1])
      (by intro o x; simp [Gate.wires]; tauto) (by
        intro o w hv ho
        simp only [Gate.Holds]
        rw [ho, hv v.1 (by simp), hv v.2.1 (by simp), hv v.2.2.1 (by simp), hv v.2.2.2 (by simp)]; ring)
  simp only [h.1.2, h.2.1.2, h.2.2.1.2, h.2.2.2.2] at this
  exact this

theorem runs_addPow5Inv (e v : Nat) (x : F) (cs : CS F) (h : Has cs v x) (hx : (x ^ e) ^ 5 = x) :
    Runs (addPow5Inv e v) cs (fun o cs' => Has cs' o (x ^ e)) := by
  have := runs_newVar_gate [v] (fun w : Nat → F => w v ^ e) (fun o =>
    { w0 := 0, w1 := 0, w2 := 0, w3 := o, w4 := v, q1 := 0, q2 := 0, q3 := 0, q4 := 0, qm1 := 0, qm2 := 0
      qc := 0, qecc := 0, qh1 := 0, qh2 := 0, qh3 := 0, qh4 := 1, qo := 1 }) cs (by simp [h.1])
      (by intro o x; simp [Gate.wires]; tauto) (by
        intro o w hv ho
        simp only [Gate.Holds]
        rw [ho, hv v (by simp), h.2, hx]; ring)
  simp only [h.2] at this
  exact this

/-! ### States -/

/-- four gadgets in a row -/
theorem sound_four (m1 m2 m3 m4 : Build F Nat) (R1 R2 R3 R4 : (Nat → F) → Nat → Prop) (h1 : Sound m1 R1)
    (h2 : Sound m2 R2) (h3 : Sound m3 R3) (h4 : Sound m4 R4) :
    Sound (do let a ← m1; let b ← m2; let c ← m3; let d ← m4; pure (a, b, c, d) : Build F SV)
      (fun w o => R1 w o.1 ∧ R2 w o.2.1 ∧ R3 w o.2.2.1 ∧ R4 w o.2.2.2) := by
  refine Sound.bind h1 (fun a => Sound.bind h2 (fun b => Sound.bind h3 (fun c => Sound.bind h4 (fun d =>
    Sound.pure _ _ ?_))))
  intro w h4 h3 h2 h1
  exact ⟨h1, h2, h3, h4⟩

theorem uniform_four (m1 m2 m3 m4 n1 n2 n3 n4 : Build F Nat) (h1 : Uniform (· = ·) m1 n1)
    (h2 : Uniform (· = ·) m2 n2) (h3 : Uniform (· = ·) m3 n3) (h4 : Uniform (· = ·) m4 n4) :
    Uniform (· = ·) (do let a ← m1; let b ← m2; let c ← m3; let d ← m4; pure (a, b, c, d) : Build F SV)
      (do let a ← n1; let b ← n2; let c ← n3; let d ← n4; pure (a, b, c, d)) := by
  refine Uniform.bind h1 (fun a _ e => ?_); subst e
  refine Uniform.bind h2 (fun b _ e => ?_); subst e
  refine Uniform.bind h3 (fun c _ e => ?_); subst e
  refine Uniform.bind h4 (fun d _ e => ?_); subst e
  exact Uniform.pure _ _ rfl

theorem runs_four (m1 m2 m3 m4 : Build F Nat) (s : St F) (cs : CS F)
    (h1 : Runs m1 cs (fun o cs' => Has cs' o s.1))
    (h2 : ∀ cs1, WF cs → Mono cs cs1 [] → Runs m2 cs1 (fun o cs' => Has cs' o s.2.1))
    (h3 : ∀ cs1, WF cs → Mono cs cs1 [] → Runs m3 cs1 (fun o cs' => Has cs' o s.2.2.1))
    (h4 : ∀ cs1, WF cs → Mono cs cs1 [] → Runs m4 cs1 (fun o cs' => Has cs' o s.2.2.2)) :
    Runs (do let a ← m1; let b ← m2; let c ← m3; let d ← m4; pure (a, b, c, d) : Build F SV) cs
      (fun o cs' => HasSt cs' o s) := by
  refine Runs.bind h1 (fun a cs1 w0 w1 mo1 ha => ?_)
  refine Runs.bind (h2 cs1 w0 mo1) (fun b cs2 _ w2 mo2 hb => ?_)
  refine Runs.bind (h3 cs2 w0 (mo1.trans mo2)) (fun c cs3 _ w3 mo3 hc => ?_)
  refine Runs.bind (h4 cs3 w0 ((mo1.trans mo2).trans mo3)) (fun d cs4 _ w4 mo4 hd => ?_)
  refine Runs.pure _ _ _ ⟨?_, ?_, ?_, hd⟩
  · exact ((ha.mono w1 mo2).mono w2 mo3).mono w3 mo4
  · exact (hb.mono w2 mo3).mono w3 mo4
  · exact hc.mono w3 mo4

theorem sound_addConstantState (v : SV) (k : St F) :
    Sound (addConstantState v k) (fun w o => stVal w o = Rescue.addState (stVal w v) k) :=
  (sound_four _ _ _ _ _ _ _ _ (sound_addConstant _ _) (sound_addConstant _ _) (sound_addConstant _ _)
    (sound_addConstant _ _)).cons (fun w o h => by
      simp only [stVal, Rescue.addState, h.1, h.2.1, h.2.2.1, h.2.2.2])

theorem sound_linearOp (v : SV) (m : St (St F)) (k : St F) :
    Sound (linearOp v m k) (fun w o => stVal w o = Rescue.linearOp m (stVal w v) k) :=
  (sound_four _ _ _ _ _ _ _ _ (sound_addLinearOp _ _ _) (sound_addLinearOp _ _ _) (sound_addLinearOp _ _ _)
    (sound_addLinearOp _ _ _)).cons (fun w o h => by
      simp only [stVal, Rescue.linearOp] at h ⊢
      simp only [h.1, h.2.1, h.2.2.1, h.2.2.2])

theorem sound_nonLinearOp (v : SV) (m : St (St F)) (k : St F) :
    Sound (nonLinearOp v m k) (fun w o => stVal w o = Rescue.linearOp m (Rescue.powVector (stVal w v) 5) k) :=
  (sound_four _ _ _ _ _ _ _ _ (sound_addNonLinearOp _ _ _) (sound_addNonLinearOp _ _ _) (sound_addNonLinearOp _ _ _)
    (sound_addNonLinearOp _ _ _)).cons (fun w o h => by
      simp only [stVal, Rescue.linearOp] at h ⊢
      simp only [h.1, h.2.1, h.2.2.1, h.2.2.2])

theorem sound_pow5Inv (e : Nat) (he : ∀ x : F, (x ^ 5) ^ e = x) (v : SV) :
    Sound (pow5Inv e v : Build F SV) (fun w o => stVal w o = Rescue.powVector (stVal w v) e) :=
  (sound_four _ _ _ _ _ _ _ _ (sound_addPow5Inv e _) (sound_addPow5Inv e _) (sound_addPow5Inv e _)
    (sound_addPow5Inv e _)).cons (fun w o h => by
      simp only [stVal, Rescue.powVector]
      rw [← h.1, ← h.2.1, ← h.2.2.1, ← h.2.2.2, he, he, he, he])

theorem runs_addConstantState (v : SV) (k s : St F) (cs : CS F) (h : HasSt cs v s) :
    Runs (addConstantState v k) cs (fun o cs' => HasSt cs' o (Rescue.addState s k)) :=
  runs_four _ _ _ _ _ cs (runs_addConstant _ _ _ _ h.1)
    (fun _ w mo => runs_addConstant _ _ _ _ (h.2.1.mono w mo))
    (fun _ w mo => runs_addConstant _ _ _ _ (h.2.2.1.mono w mo))
    (fun _ w mo => runs_addConstant _ _ _ _ (h.2.2.2.mono w mo))

theorem runs_linearOp (v : SV) (m : St (St F)) (k s : St F) (cs : CS F) (h : HasSt cs v s) :
    Runs (linearOp v m k) cs (fun o cs' => HasSt cs' o (Rescue.linearOp m s k)) :=
  runs_four _ _ _ _ _ cs (runs_addLinearOp _ _ _ _ _ h)
    (fun _ w mo => runs_addLinearOp _ _ _ _ _ (h.mono w mo))
    (fun _ w mo => runs_addLinearOp _ _ _ _ _ (h.mono w mo))
    (fun _ w mo => runs_addLinearOp _ _ _ _ _ (h.mono w mo))

theorem runs_nonLinearOp (v : SV) (m : St (St F)) (k s : St F) (cs : CS F) (h : HasSt cs v s) :
    Runs (nonLinearOp v m k) cs (fun o cs' => HasSt cs' o (Rescue.linearOp m (Rescue.powVector s 5) k)) :=
  runs_four _ _ _ _ _ cs (runs_addNonLinearOp _ _ _ _ _ h)
    (fun _ w mo => runs_addNonLinearOp _ _ _ _ _ (h.mono w mo))
    (fun _ w mo => runs_addNonLinearOp _ _ _ _ _ (h.mono w mo))
    (fun _ w mo => runs_addNonLinearOp _ _ _ _ _ (h.mono w mo))

theorem runs_pow5Inv (e : Nat) (he : ∀ x : F, (x ^ e) ^ 5 = x) (v : SV) (s : St F) (cs : CS F) (h : HasSt cs v s) :
    Runs (pow5Inv e v) cs (fun o cs' => HasSt cs' o (Rescue.powVector s e)) :=
  runs_four _ _ _ _ _ cs (runs_addPow5Inv _ _ _ _ h.1 (he _))
    (fun _ w mo => runs_addPow5Inv _ _ _ _ (h.2.1.mono w mo) (he _))
    (fun _ w mo => runs_addPow5Inv _ _ _ _ (h.2.2.1.mono w mo) (he _))
    (fun _ w mo => runs_addPow5Inv _ _ _ _ (h.2.2.2.mono w mo) (he _))

theorem uniform_rescueHash (e : Nat) (m : St (St F)) (keys : List (St F)) (v : SV) :
    Uniform (· = ·) (rescueHash e m keys v) (rescueHash e m keys v) := by
  unfold rescueHash
  split
  · exact Uniform.failure _
  · refine Uniform.bind (uniform_four _ _ _ _ _ _ _ _ (uniform_newVar_gate _ _ _ _) (uniform_newVar_gate _ _ _ _)
      (uniform_newVar_gate _ _ _ _) (uniform_newVar_gate _ _ _ _)) (fun o _ h => ?_)
    subst h
    refine Uniform.foldlM _ _ _ ?_ _ _ rfl
    intro a _ x _ h
    subst h
    unfold rescueStep
    refine Uniform.ite (fun _ => ?_) (fun _ => ?_)
    · refine Uniform.bind (uniform_four _ _ _ _ _ _ _ _ (uniform_newVar_gate _ _ _ _) (uniform_newVar_gate _ _ _ _)
        (uniform_newVar_gate _ _ _ _) (uniform_newVar_gate _ _ _ _)) (fun o _ h => ?_)
      subst h
      exact uniform_four _ _ _ _ _ _ _ _ (uniform_newVar_gate _ _ _ _) (uniform_newVar_gate _ _ _ _)
        (uniform_newVar_gate _ _ _ _) (uniform_newVar_gate _ _ _ _)
    · exact uniform_four _ _ _ _ _ _ _ _ (uniform_newVar_gate _ _ _ _) (uniform_newVar_gate _ _ _ _)
        (uniform_newVar_gate _ _ _ _) (uniform_newVar_gate _ _ _ _)

/-! ### The hash -/

/-- The Rescue parameters the circuit supports. -/
structure GoodParams (p : Rescue.Params F) : Prop where
  alpha : p.alpha = 5
  inv : ∀ x : F, (x ^ 5) ^ Rescue.limbs64 p.alphaInv = x
  inv' : ∀ x : F, (x ^ Rescue.limbs64 p.alphaInv) ^ 5 = x

/-- models the call `rescue_hash(input_var)` for the instance `p`; rescue.rs:76-97 -/
def rescueCircuit (p : Rescue.Params F) (v : SV) : Build F SV :=
  rescueHash (Rescue.limbs64 p.alphaInv) p.mds (Rescue.keyScheduling p (0, 0, 0, 0)) v

theorem sound_rescueCircuit (p : Rescue.Params F) (hp : GoodParams p) (v : SV) :
    Sound (rescueCircuit p v) (fun w o => stVal w o = Rescue.rescue p (stVal w v)) := by
  unfold rescueCircuit
  have key : ∀ keys : List (St F), keys ≠ [] → Sound (rescueHash (Rescue.limbs64 p.alphaInv) p.mds keys v)
      (fun w o => stVal w o = Rescue.block p keys (stVal w v)) := by
    intro keys hne
    cases keys with
    | nil => exact absurd rfl hne
    | cons k0 ks =>
      unfold rescueHash
      refine Sound.bind (sound_addConstantState v k0) (fun s0 => ?_)
      refine (Sound.foldlM _ (fun w pre s => stVal w s = pre.foldl (Rescue.blockStep p) (stVal w s0)) _ s0 ?_).cons ?_
      · intro pre a b _
        rw [show (fun w (a' : SV) => stVal w a = pre.foldl (Rescue.blockStep p) (stVal w s0) →
          stVal w a' = (pre ++ [b]).foldl (Rescue.blockStep p) (stVal w s0)) =
          (fun w (a' : SV) => stVal w a = pre.foldl (Rescue.blockStep p) (stVal w s0) →
          stVal w a' = Rescue.blockStep p (pre.foldl (Rescue.blockStep p) (stVal w s0)) b) from by
            simp only [List.foldl_append, List.foldl_cons, List.foldl_nil]]
        unfold rescueStep Rescue.blockStep Rescue.sbox
        refine Sound.ite (fun hb => ?_) (fun hb => ?_)
        · refine Sound.bind (sound_pow5Inv _ hp.inv a) (fun s1 => (sound_linearOp _ _ _).cons ?_)
          intro w o h1 h2 h3
          rw [if_pos hb, h1, h2, h3]
        · refine (sound_nonLinearOp _ _ _).cons ?_
          intro w o h1 h2
          rw [if_neg hb, h1, h2, hp.alpha]
      · intro w o h h0
        rw [Rescue.block_cons, ← h0]
        exact h rfl
  have hlen := (Rescue.C42_online_keys p (0, 0, 0, 0)).2 (0, 0, 0, 0)
  refine (key _ (by intro h; rw [h] at hlen; simp at hlen)).cons ?_
  intro w o h
  rw [h, (Rescue.C42_online_keys p _).1]

theorem runs_rescueCircuit (p : Rescue.Params F) (hp : GoodParams p) (v : SV) (s : St F) (cs : CS F)
    (h : HasSt cs v s) : Runs (rescueCircuit p v) cs (fun o cs' => HasSt cs' o (Rescue.rescue p s)) := by
  unfold rescueCircuit
  have hlen := (Rescue.C42_online_keys p s).2 (0, 0, 0, 0)
  rw [(Rescue.C42_online_keys p s).1]
  revert hlen
  generalize Rescue.keyScheduling p (0, 0, 0, 0) = keys
  intro hlen
  cases keys with
  | nil => simp at hlen
  | cons k0 ks =>
    unfold rescueHash
    refine Runs.bind (runs_addConstantState v k0 s cs h) (fun s0 cs1 w0 w1 mo1 h1 => ?_)
    rw [Rescue.block_cons]
    refine Runs.foldlM _ (fun cs pre a => HasSt cs a (pre.foldl (Rescue.blockStep p) (Rescue.addState s k0)))
      (fun cs cs' pre a hw mo h => h.mono hw mo) _ s0 cs1 h1 ?_
    intro cs2 pre a b post _ _ hw2 ha
    simp only [List.foldl_append, List.foldl_cons, List.foldl_nil]
    revert ha
    generalize pre.foldl (Rescue.blockStep p) (Rescue.addState s k0) = t
    intro ha
    unfold rescueStep Rescue.blockStep Rescue.sbox
    split
    · refine Runs.bind (runs_pow5Inv _ hp.inv' a t cs2 ha) (fun s1 cs3 _ _ _ h3 => ?_)
      exact runs_linearOp _ _ _ _ _ h3
    · rw [hp.alpha]
      exact runs_nonLinearOp _ _ _ _ _ ha

/-- C49 (soundness): in every circuit, every satisfying assignment gives the output wires of `rescue_hash` the value of
the Rescue permutation on the values of its input wires.  No assumption on the constants zero and one is needed. -/
theorem C49_rescue_sound (v : SV) :
    Sound (rescueCircuit Rescue.blsParams v) (fun w o =>
      (w o.1, w o.2.1, w o.2.2.1, w o.2.2.2) = Rescue.rescue Rescue.blsParams (w v.1, w v.2.1, w v.2.2.1, w v.2.2.2)) :=
  sound_rescueCircuit Rescue.blsParams
    ⟨rfl, fun x => (Rescue.C42_alpha_inverse x).1, fun x => (Rescue.C42_alpha_inverse x).2.1⟩ v

/-- C49 (completeness): on existing variables the circuit does not panic, its stored witness satisfies it and the
outputs hold the permutation of the inputs. -/
theorem C49_rescue_complete (v : SV) (s : St (ZMod Bls.r)) (cs : CS (ZMod Bls.r)) (h : HasSt cs v s) :
    Runs (rescueCircuit Rescue.blsParams v) cs (fun o cs' => HasSt cs' o (Rescue.rescue Rescue.blsParams s)) :=
  runs_rescueCircuit Rescue.blsParams
    ⟨rfl, fun x => (Rescue.C42_alpha_inverse x).1, fun x => (Rescue.C42_alpha_inverse x).2.1⟩ v s cs h

/-- C49 (completeness): a state of new variables holds the values it was made of, so hashing it gives their permutation. -/
theorem C49_rescue_of_new_state (x : St (ZMod Bls.r)) (cs : CS (ZMod Bls.r)) :
    Runs (do let v ← newStateVar (fun _ => x); let o ← rescueCircuit Rescue.blsParams v; pure (v, o)) cs
      (fun p cs' => HasSt cs' p.1 x ∧ HasSt cs' p.2 (Rescue.rescue Rescue.blsParams x)) := by
  refine Runs.bind (runs_four _ _ _ _ x cs (runs_newVar _ _) (fun _ _ _ => runs_newVar _ _) (fun _ _ _ => runs_newVar _ _)
    (fun _ _ _ => runs_newVar _ _)) (fun v cs1 _ w1 _ hv => ?_)
  refine Runs.bind (C49_rescue_complete v x cs1 hv) (fun o cs2 _ _ m2 ho => ?_)
  exact Runs.pure _ _ _ ⟨hv.mono w1 m2, ho⟩

/-- C49: the gates do not depend on the witness. -/
theorem C49_rescue_uniform (v : SV) :
    Uniform (· = ·) (rescueCircuit Rescue.blsParams v) (rescueCircuit Rescue.blsParams v) :=
  uniform_rescueHash _ _ _ _

/-- the hypotheses are met: hashing the constants of a fresh system -/
example : ∃ o cs, rescueCircuit Rescue.blsParams (0, 1, 1, 0) CS.new = some (o, cs) ∧ WF cs ∧ HSat cs ∧
    HasSt cs o (Rescue.rescue Rescue.blsParams (0, 1, 1, 0)) := by
  obtain ⟨o, cs, pv, e, w, s, -, -, h⟩ := C49_rescue_complete (0, 1, 1, 0) (0, 1, 1, 0) CS.new
    ⟨new_has.1, new_has.2, new_has.2, new_has.1⟩ WF.new new_hsat
  exact ⟨o, cs, e, w, s, h⟩

/-- and hashing four new variables of a fresh system -/
example := C49_rescue_of_new_state (3, 1, 4, 1) CS.new WF.new new_hsat

end Verif.Plonk
