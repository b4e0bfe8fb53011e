import Mathlib.Tactic.Ring
import Mathlib.Tactic.FieldSimp
import Verif.Plonk.Sat

/-!
Properties C44, C45, C47: gate evaluation and the arithmetic gadgets.
-/

namespace Verif.Plonk

open Spec

variable {F : Type} [Field F]

/-! ### C44: the gate function -/

/-- C44: `eval_gate_func` computes the documented gate equation, for every gate, assignment and public input. -/
theorem C44_eval_gate_func (g : Gate F) (w : Nat → F) (pi : F) :
    ∃ r, evalGateFunc (g.wires.map w) g.sels pi = some r ∧ (r = 0 ↔ Gate.Holds g w pi) := by
  refine ⟨_, rfl, ?_⟩
  unfold Gate.Holds
  constructor
  · intro h; linear_combination h
  · intro h; linear_combination h

/-- C44: the selector multipliers are the coefficients of the selectors in the gate equation: the inner product of
selectors and multipliers plus the public input is the value of the gate function. -/
theorem C44_selector_multipliers (w q : List F) (pi r : F) (h : evalGateFunc w q pi = some r) :
    ∃ m, evalSelectorMultipliers w = some m ∧ r = (List.zipWith (· * ·) q m).sum + pi := by
  unfold evalGateFunc at h
  split at h
  · simp only [Option.some.injEq] at h
    refine ⟨_, rfl, ?_⟩
    rw [← h]
    simp only [List.zipWith_cons_cons, List.zipWith_nil_right, List.sum_cons, List.sum_nil]
    ring
  · simp at h

/-- C44: `eval_gate_func` refuses exactly the wrong numbers of wires or selectors. -/
theorem C44_wrong_lengths (w q : List F) (pi : F) :
    evalGateFunc w q pi = none ↔ ¬(w.length = 5 ∧ q.length = 13) := by
  constructor
  · intro h hc
    obtain ⟨h1, h2⟩ := hc
    match w, h1 with
    | [_, _, _, _, _], _ =>
      match q, h2 with
      | [_, _, _, _, _, _, _, _, _, _, _, _, _], _ => simp [evalGateFunc] at h
  · intro h
    unfold evalGateFunc
    split
    · exact absurd ⟨rfl, rfl⟩ h
    · rfl

theorem publicAt_eq [DecidableEq F] (cs : CS F) (w online : List F) (i : Nat) (x : F) :
    publicAt cs w online i = some x ↔
      (∀ (k c v : Nat) (y : F), cs.pubCons[k]? = some c → cs.pubVars[k]? = some v → online[k]? = some y → c = i →
        w[v]? = some y) ∧
      (((cs.pubCons.zip cs.pubVars).zip online).foldl (fun acc e => if e.1.1 = i then e.2 else acc) 0) = x := by
  unfold publicAt
  generalize cs.pubCons = C
  generalize cs.pubVars = V
  generalize (0 : F) = acc
  induction C generalizing V online acc with
  | nil => simp
  | cons c C ih =>
    cases V with
    | nil => simp
    | cons v V =>
      cases online with
      | nil => simp
      | cons y o =>
        simp only [List.zip_cons_cons, List.foldlM_cons, List.foldl_cons]
        have split_k : ∀ P : Prop, ((∀ (k c' v' : Nat) (y' : F), (c :: C)[k]? = some c' → (v :: V)[k]? = some v' →
            (y :: o)[k]? = some y' → c' = i → w[v']? = some y') ∧ P) ↔
            ((c = i → w[v]? = some y) ∧ (∀ (k c' v' : Nat) (y' : F), C[k]? = some c' → V[k]? = some v' → o[k]? = some y' →
              c' = i → w[v']? = some y') ∧ P) := by
          intro P
          constructor
          · rintro ⟨h, hp⟩
            exact ⟨h 0 c v y rfl rfl rfl, fun k c' v' y' h1 h2 h3 h4 => h (k + 1) c' v' y' (by simpa using h1)
              (by simpa using h2) (by simpa using h3) h4, hp⟩
          · rintro ⟨h0, h, hp⟩
            refine ⟨?_, hp⟩
            intro k c' v' y' h1 h2 h3 h4
            cases k with
            | zero => simp at h1 h2 h3; subst h1 h2 h3; exact h0 h4
            | succ k => exact h k c' v' y' (by simpa using h1) (by simpa using h2) (by simpa using h3) h4
        rw [split_k]
        by_cases hc : c = i
        · simp only [hc, if_true, true_implies]
          cases hv : w[v]? with
          | none => simp
          | some z =>
            by_cases hz : z = y
            · subst hz
              simp only [if_true, Option.bind_eq_bind, Option.bind_some, true_and]
              exact ih o V z
            · simp [hz]
        · simp only [hc, if_false, Option.bind_eq_bind, Option.bind_some, false_implies, true_and]
          exact ih o V acc

/-- C44: `verify_witness` accepts exactly when the lengths are right, every public value agrees with the witness
and every gate equation holds.  (It does not look at the boolean constraints.) -/
theorem C44_verify_witness [DecidableEq F] (cs : CS F) (hw : WF cs) (w online : List F) :
    cs.verifyWitness w online = true ↔
      w.length = cs.numVars ∧ online.length = cs.pubVars.length ∧
      (∀ (k v : Nat) (x : F), cs.pubVars[k]? = some v → online[k]? = some x → w[v]? = some x) ∧
      ∀ i g, cs.gates[i]? = some g → Gate.Holds g (fun v => w[v]?.getD 0) (piAt cs.pubCons online i) := by
  unfold CS.verifyWitness
  simp only [Bool.and_eq_true, beq_iff_eq, List.all_eq_true]
  have hpi : ∀ i, (((cs.pubCons.zip cs.pubVars).zip online).foldl
      (fun acc e => if e.1.1 = i then e.2 else acc) 0) = piAt cs.pubCons online i := by
    intro i
    unfold piAt
    have hl := hw.len
    clear hw
    generalize (0 : F) = acc
    generalize cs.pubCons = C at hl
    generalize cs.pubVars = V at hl
    induction C generalizing V online acc with
    | nil => simp
    | cons c C ih =>
      cases V with
      | nil => simp at hl
      | cons v V =>
        cases online with
        | nil => simp
        | cons y o =>
          simp only [List.zip_cons_cons, List.foldl_cons]
          exact ih o _ V (by simpa using hl)
  have hgate : ∀ (i : Nat) (g : Gate F), cs.gates[i]? = some g → w.length = cs.numVars →
      g.wires.mapM (fun v => w[v]?) = some (g.wires.map (fun v => w[v]?.getD 0)) := by
    intro i g hg hlen
    have hmem := List.mem_of_getElem? hg
    have hlt := hw.wires g hmem
    have : ∀ v ∈ g.wires, w[v]? = some (w[v]?.getD 0) := by
      intro v hv
      rw [List.getElem?_eq_getElem (by rw [hlen]; exact hlt v hv)]
      rfl
    generalize g.wires = l at this
    clear hlt
    induction l with
    | nil => rfl
    | cons a l ih =>
      rw [List.mapM_cons, this a (by simp), ih (fun v hv => this v (by simp [hv]))]
      rfl
  constructor
  · rintro ⟨⟨⟨h1, h2⟩, h3⟩, h4⟩
    have hat : ∀ (i : Nat) (g : Gate F), cs.gates[i]? = some g → ∃ pi, publicAt cs w online i = some pi ∧
        evalGateFunc (g.wires.map (fun v => w[v]?.getD 0)) g.sels pi = some 0 := by
      intro i g hg
      have := h4 (g, i) (by rw [List.mem_zipIdx_iff_getElem?]; exact hg)
      simp only [hgate i g hg h1] at this
      cases hp : publicAt cs w online i with
      | none => rw [hp] at this; simp at this
      | some pi => rw [hp] at this; exact ⟨pi, rfl, by simpa using this⟩
    refine ⟨h1, h2, ?_, ?_⟩
    · intro k v x hv hx
      have hk : k < cs.pubCons.length := by
        rw [hw.len]; exact (List.getElem?_eq_some_iff.mp hv).1
      have hc := List.getElem?_eq_getElem hk
      have hg := hw.pi k _ v hc hv
      obtain ⟨pi, hp, _⟩ := hat _ _ hg
      exact ((publicAt_eq cs w online _ _).mp hp).1 k _ v x hc hv hx rfl
    · intro i g hg
      obtain ⟨pi, hp, he⟩ := hat i g hg
      have := ((publicAt_eq cs w online _ _).mp hp).2
      rw [hpi] at this
      rw [this]
      obtain ⟨r, hr, hiff⟩ := C44_eval_gate_func g (fun v => w[v]?.getD 0) pi
      rw [hr] at he
      exact hiff.mp (Option.some.inj he)
  · rintro ⟨h1, h2, h3, h4⟩
    refine ⟨⟨⟨h1, h2⟩, by rw [h2, hw.len]⟩, ?_⟩
    rintro ⟨g, i⟩ hm
    rw [List.mem_zipIdx_iff_getElem?] at hm
    simp only at hm
    have hp : publicAt cs w online i = some (piAt cs.pubCons online i) := by
      rw [publicAt_eq, hpi]
      exact ⟨fun k c v y _ hv hy _ => h3 k v y hv hy, rfl⟩
    simp only [hp, hgate i g hm h1]
    obtain ⟨r, hr, hiff⟩ := C44_eval_gate_func g (fun v => w[v]?.getD 0) (piAt cs.pubCons online i)
    rw [hr, hiff.mpr (h4 i g hm)]
    simp

/-! ### Gates -/

theorem lcGate_holds (a b c d o : Nat) (q1 q2 q3 q4 : F) (w : Nat → F) :
    Gate.Holds (lcGate a b c d o q1 q2 q3 q4) w 0 ↔ w o = q1 * w a + q2 * w b + q3 * w c + q4 * w d := by
  simp [Gate.Holds, lcGate, eq_comm]

theorem mulGate_holds (l r o : Nat) (w : Nat → F) : Gate.Holds (mulGate l r o) w 0 ↔ w o = w l * w r := by
  simp [Gate.Holds, mulGate, eq_comm]

theorem selectGate_holds (v0 v1 bit o : Nat) (w : Nat → F) :
    Gate.Holds (selectGate v0 v1 bit o) w 0 ↔ w o = (1 - w bit) * w v0 + w bit * w v1 := by
  unfold Gate.Holds selectGate
  simp only
  constructor
  · intro h; linear_combination -h
  · intro h; linear_combination -h

/-! ### Soundness of the gadgets -/

theorem sound_insertLcGate (a b c d o : Nat) (q1 q2 q3 q4 : F) :
    Sound (insertLcGate a b c d o q1 q2 q3 q4)
      (fun w _ => w o = q1 * w a + q2 * w b + q3 * w c + q4 * w d) := by
  have : insertLcGate a b c d o q1 q2 q3 q4 =
      (do assertVars [a, b, c, d]; assertVars [o]; pushGate (lcGate a b c d o q1 q2 q3 q4)) := rfl
  rw [this]
  intro cs x cs' hw hm
  simp only [Bind.bind, StateT.bind] at hm
  obtain ⟨⟨u, cs1⟩, h1, h2⟩ := Option.bind_eq_some_iff.mp hm
  obtain ⟨rfl, hlt⟩ := assertVars_some h1
  have h3 : (assertVars [o] cs1).bind (fun p => pushGate (lcGate a b c d o q1 q2 q3 q4) p.2) = some (x, cs') := h2
  clear h2
  obtain ⟨⟨u', cs2⟩, h1', h4⟩ := Option.bind_eq_some_iff.mp h3
  obtain ⟨rfl, hlt'⟩ := assertVars_some h1'
  unfold pushGate at h4
  simp only [Option.some.injEq, Prod.mk.injEq] at h4
  obtain ⟨_, rfl⟩ := h4
  refine ⟨pushGate_wf hw _ ?_, [], pushGate_mono _ _, fun w on hs => ⟨rfl, ?_⟩⟩
  · intro v hv
    simp only [Gate.wires, lcGate, List.mem_cons, List.not_mem_nil, or_false] at hv
    rcases hv with rfl | rfl | rfl | rfl | rfl
    · exact hlt _ (by simp)
    · exact hlt _ (by simp)
    · exact hlt _ (by simp)
    · exact hlt _ (by simp)
    · exact hlt' _ (by simp)
  · exact (lcGate_holds _ _ _ _ _ _ _ _ _ _).mp (pushGate_sat hw _ hs)

theorem sound_insertMulGate (l r o : Nat) :
    Sound (insertMulGate l r o : Build F Unit) (fun w _ => w o = w l * w r) :=
  (sound_pushGate_after [l, r, o] (mulGate l r o) (by simp [Gate.wires, mulGate])).cons
    (fun w _ h => (mulGate_holds _ _ _ _).mp h)

theorem sound_insertConstantGate (v : Nat) (c : F) :
    Sound (insertConstantGate v c) (fun w _ => w v = c) :=
  (sound_pushGate_after [v] (constGate v c) (by simp [Gate.wires, constGate])).cons
    (fun w _ h => by rw [constGate_holds] at h; simpa using h.symm)

theorem sound_linearCombine (a b c d : Nat) (q1 q2 q3 q4 : F) :
    Sound (linearCombine a b c d q1 q2 q3 q4)
      (fun w o => w o = q1 * w a + q2 * w b + q3 * w c + q4 * w d) := by
  unfold linearCombine
  refine Sound.bind (sound_assertVars _) (fun _ => Sound.bind (sound_newVar _) (fun o => ?_))
  refine Sound.bind (sound_insertLcGate a b c d o q1 q2 q3 q4) (fun _ => Sound.pure _ _ ?_)
  intro w h _ _
  exact h

theorem sound_addV (l r : Nat) : Sound (addV l r : Build F Nat) (fun w o => w o = w l + w r) := by
  unfold addV insertAddGate
  refine Sound.bind (sound_assertVars _) (fun _ => Sound.bind (sound_newVar _) (fun o => ?_))
  refine Sound.bind (sound_insertLcGate _ _ _ _ o _ _ _ _) (fun _ => Sound.pure _ _ ?_)
  intro w h _ _
  rw [h]; ring

theorem sound_subV (l r : Nat) : Sound (subV l r : Build F Nat) (fun w o => w o = w l - w r) := by
  unfold subV insertSubGate
  refine Sound.bind (sound_assertVars _) (fun _ => Sound.bind (sound_newVar _) (fun o => ?_))
  refine Sound.bind (sound_insertLcGate _ _ _ _ o _ _ _ _) (fun _ => Sound.pure _ _ ?_)
  intro w h _ _
  rw [h]; ring

theorem sound_mulV (l r : Nat) : Sound (mulV l r : Build F Nat) (fun w o => w o = w l * w r) := by
  unfold mulV
  refine Sound.bind (sound_assertVars _) (fun _ => Sound.bind (sound_newVar _) (fun o => ?_))
  refine Sound.bind (sound_insertMulGate _ _ o) (fun _ => Sound.pure _ _ ?_)
  intro w h _ _
  exact h

/-- without an assumption on variable zero -/
theorem sound_equalV_raw (l r : Nat) : Sound (equalV l r : Build F Unit) (fun w _ => w l = w r + w 0) := by
  unfold equalV insertSubGate
  refine (sound_insertLcGate _ _ _ _ _ _ _ _ _).cons (fun w _ h => ?_)
  unfold zeroVar at h
  linear_combination -h

theorem sound_equalV (l r : Nat) : Sound (equalV l r : Build F Unit) (fun w _ => w 0 = 0 → w l = w r) :=
  (sound_equalV_raw l r).cons (fun w _ h h0 => by rw [h, h0, add_zero])

theorem sound_insertBooleanGate (v : Nat) : Sound (insertBooleanGate v : Build F Unit) (fun w _ => IsBit (w v)) :=
  (sound_insertMulGate v v v).cons (fun w _ h => by
    have : w v * (w v - 1) = 0 := by linear_combination -h
    rcases mul_eq_zero.mp this with h | h
    · exact .inl h
    · exact .inr (sub_eq_zero.mp h))

theorem sound_selectV [DecidableEq F] (v0 v1 bit : Nat) :
    Sound (selectV v0 v1 bit : Build F Nat) (fun w o => w o = (1 - w bit) * w v0 + w bit * w v1) := by
  unfold selectV
  exact (sound_newVar_gate [v0, v1, bit] _ (selectGate v0 v1 bit)
    (by simp [Gate.wires, selectGate])).cons (fun w o h => (selectGate_holds _ _ _ _ _).mp h)

theorem sound_isEqualOrNotEqual (l r : Nat) :
    Sound (isEqualOrNotEqual l r : Build F (Nat × Nat)) (fun w p => w 0 = 0 → w 1 = 1 →
      (w l = w r → w p.1 = 1 ∧ w p.2 = 0) ∧ (w l ≠ w r → w p.1 = 0 ∧ w p.2 = 1)) := by
  unfold isEqualOrNotEqual
  refine Sound.bind (sound_subV l r) (fun diff => ?_)
  refine Sound.bind (sound_newVar _) (fun inv => ?_)
  refine Sound.bind (sound_mulV diff inv) (fun m => ?_)
  refine Sound.bind (sound_subV oneVar m) (fun z => ?_)
  refine Sound.bind (sound_insertMulGate diff z zeroVar) (fun _ => Sound.pure _ _ ?_)
  intro w h5 h4 h3 _ h1 h0 hone
  unfold zeroVar at h5
  unfold oneVar at h4
  rw [h0] at h5
  rw [hone] at h4
  simp only
  constructor
  · intro he
    rw [he, sub_self] at h1
    rw [h1, zero_mul] at h3
    rw [h4, h3]; simp
  · intro hne
    have hd : w diff ≠ 0 := by rw [h1]; exact sub_ne_zero.mpr hne
    have hz : w z = 0 := by
      rcases mul_eq_zero.mp h5.symm with h | h
      · exact absurd h hd
      · exact h
    refine ⟨hz, ?_⟩
    rw [hz] at h4
    exact (sub_eq_zero.mp h4.symm).symm

/-! ### Honest runs -/

theorem runs_insertLcGate (a b c d o : Nat) (q1 q2 q3 q4 x1 x2 x3 x4 y : F) (cs : CS F)
    (h1 : Has cs a x1) (h2 : Has cs b x2) (h3 : Has cs c x3) (h4 : Has cs d x4) (ho : Has cs o y)
    (h : y = q1 * x1 + q2 * x2 + q3 * x3 + q4 * x4) :
    Runs (insertLcGate a b c d o q1 q2 q3 q4) cs (fun _ _ => True) := by
  unfold insertLcGate
  refine Runs.bind (runs_assertVars _ cs (by simp [h1.1, h2.1, h3.1, h4.1])) ?_
  rintro _ cs1 _ _ _ rfl
  refine Runs.bind (runs_assertVars _ cs1 (by simp [ho.1])) ?_
  rintro _ cs2 _ _ _ rfl
  refine runs_pushGate _ _ ?_ ?_
  · simp [Gate.wires, lcGate, h1.1, h2.1, h3.1, h4.1, ho.1]
  · rw [lcGate_holds, h1.2, h2.2, h3.2, h4.2, ho.2, h]

theorem runs_insertMulGate (l r o : Nat) (x y z : F) (cs : CS F) (h1 : Has cs l x) (h2 : Has cs r y)
    (h3 : Has cs o z) (h : z = x * y) : Runs (insertMulGate l r o) cs (fun _ _ => True) := by
  intro hw hs
  have h0 := hw.two
  unfold insertMulGate
  refine Runs.bind (runs_assertVars _ cs (by simp [h1.1, h2.1, h3.1])) ?_ hw hs
  rintro _ cs1 _ _ _ rfl
  refine runs_pushGate _ _ ?_ ?_
  · simp [Gate.wires, mulGate, h1.1, h2.1, h3.1]; omega
  · rw [mulGate_holds, h1.2, h2.2, h3.2, h]

theorem runs_insertConstantGate (v : Nat) (c : F) (cs : CS F) (h1 : Has cs v c) :
    Runs (insertConstantGate v c) cs (fun _ _ => True) := by
  unfold insertConstantGate
  refine Runs.bind (runs_assertVars _ cs (by simp [h1.1])) ?_
  rintro _ cs1 _ _ _ rfl
  refine runs_pushGate _ _ ?_ ?_
  · simp [Gate.wires, constGate, h1.1]
  · rw [constGate_holds, h1.2, add_zero]

theorem has_zero_any {cs : CS F} (hw : WF cs) : Has cs 0 (cs.value 0) := ⟨by have := hw.two; omega, rfl⟩

theorem runs_linearCombine (a b c d : Nat) (q1 q2 q3 q4 x1 x2 x3 x4 : F) (cs : CS F)
    (h1 : Has cs a x1) (h2 : Has cs b x2) (h3 : Has cs c x3) (h4 : Has cs d x4) :
    Runs (linearCombine a b c d q1 q2 q3 q4) cs
      (fun o cs' => Has cs' o (q1 * x1 + q2 * x2 + q3 * x3 + q4 * x4)) := by
  unfold linearCombine
  refine Runs.bind (runs_assertVars _ cs (by simp [h1.1, h2.1, h3.1, h4.1])) ?_
  rintro _ cs1 _ _ _ rfl
  refine Runs.bind (runs_newVar _ _) ?_
  intro o cs2 w1 _ mo ho
  have ho' : Has cs2 o (q1 * x1 + q2 * x2 + q3 * x3 + q4 * x4) := by
    rw [h1.2, h2.2, h3.2, h4.2] at ho
    convert ho using 1
    ring
  refine Runs.bind (runs_insertLcGate a b c d o _ _ _ _ _ _ _ _ _ cs2 (h1.mono w1 mo) (h2.mono w1 mo)
    (h3.mono w1 mo) (h4.mono w1 mo) ho' rfl) ?_
  intro _ cs3 w2 _ mo2 _
  exact Runs.pure _ _ _ (ho'.mono w2 mo2)

theorem runs_addV (l r : Nat) (x y : F) (cs : CS F) (h1 : Has cs l x) (h2 : Has cs r y) :
    Runs (addV l r) cs (fun o cs' => Has cs' o (x + y)) := by
  unfold addV insertAddGate
  refine Runs.bind (runs_assertVars _ cs (by simp [h1.1, h2.1])) ?_
  rintro _ cs1 _ _ _ rfl
  refine Runs.bind (runs_newVar _ _) ?_
  intro o cs2 w1 w2 mo ho
  rw [h1.2, h2.2] at ho
  refine Runs.bind (runs_insertLcGate l r 0 0 o _ _ _ _ _ _ _ _ _ cs2 (h1.mono w1 mo) (h2.mono w1 mo)
    (has_zero_any w2) (has_zero_any w2) ho (by ring)) ?_
  intro _ cs3 w2 _ mo2 _
  exact Runs.pure _ _ _ (ho.mono w2 mo2)

theorem runs_subV (l r : Nat) (x y : F) (cs : CS F) (h1 : Has cs l x) (h2 : Has cs r y) :
    Runs (subV l r) cs (fun o cs' => Has cs' o (x - y)) := by
  unfold subV insertSubGate
  refine Runs.bind (runs_assertVars _ cs (by simp [h1.1, h2.1])) ?_
  rintro _ cs1 _ _ _ rfl
  refine Runs.bind (runs_newVar _ _) ?_
  intro o cs2 w1 w2 mo ho
  rw [h1.2, h2.2] at ho
  refine Runs.bind (runs_insertLcGate l r 0 0 o _ _ _ _ _ _ _ _ _ cs2 (h1.mono w1 mo) (h2.mono w1 mo)
    (has_zero_any w2) (has_zero_any w2) ho (by ring)) ?_
  intro _ cs3 w2 _ mo2 _
  exact Runs.pure _ _ _ (ho.mono w2 mo2)

theorem runs_mulV (l r : Nat) (x y : F) (cs : CS F) (h1 : Has cs l x) (h2 : Has cs r y) :
    Runs (mulV l r) cs (fun o cs' => Has cs' o (x * y)) := by
  unfold mulV
  refine Runs.bind (runs_assertVars _ cs (by simp [h1.1, h2.1])) ?_
  rintro _ cs1 _ _ _ rfl
  refine Runs.bind (runs_newVar _ _) ?_
  intro o cs2 w1 w2 mo ho
  rw [h1.2, h2.2] at ho
  refine Runs.bind (runs_insertMulGate l r o _ _ _ cs2 (h1.mono w1 mo) (h2.mono w1 mo) ho rfl) ?_
  intro _ cs3 w2 _ mo2 _
  exact Runs.pure _ _ _ (ho.mono w2 mo2)

theorem runs_equalV (l r : Nat) (x : F) (cs : CS F) (h0 : Has cs 0 0) (h1 : Has cs l x) (h2 : Has cs r x) :
    Runs (equalV l r) cs (fun _ _ => True) := by
  unfold equalV insertSubGate
  exact runs_insertLcGate l r 0 0 zeroVar _ _ _ _ x x 0 0 0 cs h1 h2 h0 h0 h0 (by ring)

theorem runs_insertBooleanGate (v : Nat) (x : F) (cs : CS F) (h1 : Has cs v x) (hb : IsBit x) :
    Runs (insertBooleanGate v) cs (fun _ _ => True) := by
  refine runs_insertMulGate v v v x x x cs h1 h1 h1 ?_
  rcases hb with rfl | rfl <;> simp

theorem runs_selectV [DecidableEq F] (v0 v1 bit : Nat) (x y b : F) (cs : CS F) (h1 : Has cs v0 x) (h2 : Has cs v1 y)
    (h3 : Has cs bit b) (hb : IsBit b) :
    Runs (selectV v0 v1 bit) cs (fun o cs' => Has cs' o (if b = 0 then x else y)) := by
  unfold selectV
  refine Runs.bind (runs_assertVars _ cs (by simp [h1.1, h2.1, h3.1])) ?_
  rintro _ cs1 _ _ _ rfl
  refine Runs.bind (runs_newVar _ _) ?_
  intro o cs2 w1 w2 mo ho
  rw [h1.2, h2.2, h3.2] at ho
  refine Runs.bind (runs_pushGate _ _ ?_ ?_) ?_
  · simp [Gate.wires, selectGate, (h1.mono w1 mo).1, (h2.mono w1 mo).1, (h3.mono w1 mo).1, ho.1]
  · rw [selectGate_holds, (h1.mono w1 mo).2, (h2.mono w1 mo).2, (h3.mono w1 mo).2, ho.2]
    rcases hb with rfl | rfl <;> simp
  · intro _ cs3 w2 _ mo2 _
    exact Runs.pure _ _ _ (ho.mono w2 mo2)

theorem runs_isEqualOrNotEqual [DecidableEq F] (l r : Nat) (x y : F) (cs : CS F) (h0 : Has cs 0 0) (h1 : Has cs 1 1)
    (hl : Has cs l x) (hr : Has cs r y) :
    Runs (isEqualOrNotEqual l r) cs (fun p cs' =>
      Has cs' p.1 (if x = y then 1 else 0) ∧ Has cs' p.2 (if x = y then 0 else 1)) := by
  unfold isEqualOrNotEqual
  refine Runs.bind (runs_subV l r x y cs hl hr) ?_
  intro d cs1 w0 w1 mo1 hd
  refine Runs.bind (runs_newVar _ _) ?_
  intro i cs2 _ w2 mo2 hi
  rw [hd.2] at hi
  refine Runs.bind (runs_mulV d i _ _ cs2 (hd.mono w1 mo2) hi) ?_
  intro m cs3 _ w3 mo3 hm
  have h1' := (((h1.mono w0 mo1).mono w1 mo2).mono w2 mo3)
  refine Runs.bind (runs_subV oneVar m 1 _ cs3 h1' hm) ?_
  intro z cs4 _ w4 mo4 hz
  have h0' := ((((h0.mono w0 mo1).mono w1 mo2).mono w2 mo3).mono w3 mo4)
  have hd' := (((hd.mono w1 mo2).mono w2 mo3).mono w3 mo4)
  have hm' := hm.mono w3 mo4
  refine Runs.bind (runs_insertMulGate d z zeroVar _ _ _ cs4 hd' hz h0' ?_) ?_
  · by_cases hxy : x - y = 0
    · rw [hxy]; simp
    · field_simp; ring
  · intro _ cs5 _ w5 mo5 _
    refine Runs.pure _ _ _ ⟨?_, ?_⟩
    · have := hz.mono w4 mo5
      simp only
      by_cases hxy : x = y
      · subst hxy; simpa using this
      · have : (x - y) ≠ 0 := sub_ne_zero.mpr hxy
        rw [if_neg hxy]
        rename_i h'
        rwa [mul_inv_cancel₀ this, sub_self] at h'
    · have := hm'.mono w4 mo5
      simp only
      by_cases hxy : x = y
      · subst hxy; simpa using this
      · have : (x - y) ≠ 0 := sub_ne_zero.mpr hxy
        rw [if_neg hxy]
        rename_i h'
        rwa [mul_inv_cancel₀ this] at h'

end Verif.Plonk
