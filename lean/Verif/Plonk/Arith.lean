import Mathlib.Algebra.Field.ZMod
import Mathlib.Tactic.NormNum.Prime
import Verif.Plonk.Range

/-!
Properties C45 and C47: the arithmetic gadgets in any circuit, public inputs, padding, and the constants zero
and one.
-/

namespace Verif.Plonk

open Spec

variable {F : Type} [Field F]

/-! ### Public inputs and padding -/

theorem preparePi_some {v : Nat} {cs cs' : CS F} {u : Unit} (h : preparePi v cs = some (u, cs')) :
    v < cs.numVars ∧ cs' = { cs with
      gates := cs.gates ++ [constGate v 0]
      pubVars := cs.pubVars ++ [v]
      pubCons := cs.pubCons ++ [cs.gates.length] } := by
  have h1 : (assertVars [v] { cs with pubVars := cs.pubVars ++ [v], pubCons := cs.pubCons ++ [cs.gates.length] }).bind
      (fun p => pushGate (constGate v 0) p.2) = some (u, cs') := h
  obtain ⟨⟨u1, cs1⟩, e1, e2⟩ := Option.bind_eq_some_iff.mp h1
  obtain ⟨rfl, hlt⟩ := assertVars_some e1
  unfold pushGate at e2
  simp only [Option.some.injEq, Prod.mk.injEq] at e2
  exact ⟨hlt v (by simp), e2.2.symm⟩

theorem preparePi_wf {cs : CS F} (hw : WF cs) (v : Nat) (hv : v < cs.numVars) :
    WF { cs with
      gates := cs.gates ++ [constGate v 0]
      pubVars := cs.pubVars ++ [v]
      pubCons := cs.pubCons ++ [cs.gates.length] } where
  len := by simp [hw.len]
  pi := by
    intro k c x hc hx
    simp only at hc hx ⊢
    by_cases hk : k < cs.pubCons.length
    · rw [List.getElem?_append_left hk] at hc
      rw [List.getElem?_append_left (hw.len ▸ hk)] at hx
      have := hw.pi k c x hc hx
      rw [List.getElem?_append_left (List.getElem?_eq_some_iff.mp this).1]
      exact this
    · have hk' : k = cs.pubCons.length := by
        have := (List.getElem?_eq_some_iff.mp hc).1
        simp only [List.length_append, List.length_singleton] at this
        omega
      subst hk'
      rw [List.getElem?_append_right (le_refl _)] at hc
      rw [hw.len, List.getElem?_append_right (le_refl _)] at hx
      simp only [Nat.sub_self, List.getElem?_cons_zero, Option.some.injEq] at hc hx
      subst hc hx
      simp
  nodup := by
    rw [List.nodup_append]
    refine ⟨hw.nodup, by simp, ?_⟩
    intro a ha b hb
    have := hw.pubCons_lt a ha
    simp only [List.mem_singleton] at hb
    omega
  bool := fun b hb => by have := hw.bool b hb; simp only [List.length_append, List.length_singleton]; omega
  wit := hw.wit
  wires := by
    intro g' hg' x hx
    rcases List.mem_append.mp hg' with h | h
    · exact hw.wires g' h x hx
    · rw [List.mem_singleton.mp h] at hx
      simp only [Gate.wires, constGate, List.mem_cons, List.not_mem_nil, or_false, or_self] at hx
      rw [hx]; exact hv
  two := hw.two

theorem preparePi_mono (cs : CS F) (v : Nat) : Mono cs { cs with
      gates := cs.gates ++ [constGate v 0]
      pubVars := cs.pubVars ++ [v]
      pubCons := cs.pubCons ++ [cs.gates.length] } [v] :=
  ⟨List.prefix_append _ _, le_refl _, fun _ h => h, rfl, ⟨[cs.gates.length], rfl, by simp⟩, List.prefix_refl _⟩

theorem soundP_preparePi (v : Nat) : SoundP (preparePi v : Build F Unit) (fun _ _ pv => pv = [v]) := by
  intro cs a cs' hw hm
  obtain ⟨hv, rfl⟩ := preparePi_some hm
  exact ⟨preparePi_wf hw v hv, [v], preparePi_mono cs v, fun _ _ _ => rfl⟩

theorem piAt_append_online (c : List Nat) (k : Nat) (o : List F) (x : F) (i : Nat) (hl : c.length = o.length) :
    piAt (c ++ [k]) (o ++ [x]) i = if k = i then x else piAt c o i := by
  unfold piAt
  rw [List.zip_append hl, List.foldl_append]
  simp

theorem runsP_preparePi (v : Nat) (cs : CS F) (hv : v < cs.numVars) :
    RunsP (preparePi v) cs (fun _ _ pv => pv = [v]) := by
  intro hw hs
  have hnew := preparePi_mono cs v
  refine ⟨(), _, [v], ?_, preparePi_wf hw v hv, ?_, hnew, rfl⟩
  · unfold preparePi insertConstantGate
    have : assertVars [v] { cs with pubVars := cs.pubVars ++ [v], pubCons := cs.pubCons ++ [cs.gates.length] } =
        some ((), { cs with pubVars := cs.pubVars ++ [v], pubCons := cs.pubCons ++ [cs.gates.length] }) := by
      unfold assertVars
      rw [if_pos (by simpa using hv)]
    simp only [Bind.bind, StateT.bind, this, Option.bind_some, pushGate]
  · intro i g hg
    simp only at hg ⊢
    change Gate.Holds g cs.value _ ∧ (i ∈ cs.boolIdx → IsBit (cs.value _) ∧ IsBit (cs.value _) ∧ IsBit (cs.value _))
    have hon : CS.online { cs with
        gates := cs.gates ++ [constGate v 0]
        pubVars := cs.pubVars ++ [v]
        pubCons := cs.pubCons ++ [cs.gates.length] } = cs.online ++ [cs.value v] := by
      simp only [CS.online, List.map_append, List.map_cons, List.map_nil]
      rfl
    rw [hon, piAt_append_online _ _ _ _ _ (by simp [CS.online, hw.len])]
    by_cases hi : i < cs.gates.length
    · rw [List.getElem?_append_left hi] at hg
      rw [if_neg (by omega)]
      exact hs i g hg
    · have hlen : i = cs.gates.length := by
        have := (List.getElem?_eq_some_iff.mp hg).1
        simp only [List.length_append, List.length_singleton] at this
        omega
      subst hlen
      simp only [List.getElem?_append_right (le_refl _), Nat.sub_self, List.getElem?_cons_zero,
        Option.some.injEq] at hg
      subst hg
      rw [if_pos rfl, constGate_holds, zero_add]
      exact ⟨rfl, fun hb => absurd (hw.bool _ hb) (by simp)⟩

/-- An assignment satisfies the padded circuit iff it satisfies the circuit. -/
theorem pad_sat (cs : CS F) (hw : WF cs) : ∃ cs', pad cs = some ((), cs') ∧ WF cs' ∧
    cs'.gates.length = nextPow2 cs.gates.length ∧ ∀ w online, Sat cs' w online ↔ Sat cs w online := by
  have hle : cs.gates.length ≤ nextPow2 cs.gates.length := by
    unfold nextPow2
    exact Nat.le_pow_clog (by norm_num) _
  refine ⟨_, rfl, ?_, by simp; omega, ?_⟩
  · refine { len := hw.len, pi := ?_, nodup := hw.nodup, bool := ?_, wit := hw.wit, wires := ?_, two := hw.two }
    · intro k c v hc hv
      have := hw.pi k c v hc hv
      simp only
      rw [List.getElem?_append_left (List.getElem?_eq_some_iff.mp this).1]
      exact this
    · intro b hb
      have := hw.bool b hb
      simp only [List.length_append]; omega
    · intro g hg v hv
      rcases List.mem_append.mp hg with h | h
      · exact hw.wires g h v hv
      · rw [List.eq_of_mem_replicate h] at hv
        have := hw.two
        simp only [Gate.wires, padGate, List.mem_cons, List.not_mem_nil, or_false, or_self] at hv
        simp only
        omega
  · intro w online
    constructor
    · intro hs i g hg
      have hi := (List.getElem?_eq_some_iff.mp hg).1
      exact hs i g (by simp only; rw [List.getElem?_append_left hi]; exact hg)
    · intro hs i g hg
      simp only at hg ⊢
      by_cases hi : i < cs.gates.length
      · rw [List.getElem?_append_left hi] at hg
        exact hs i g hg
      · rw [List.getElem?_append_right (by omega)] at hg
        have hmem := List.mem_of_getElem? hg
        rw [List.eq_of_mem_replicate hmem, piAt_fresh hw _ _ (by omega)]
        refine ⟨by simp [Gate.Holds, padGate], fun hb => absurd (hw.bool i hb) hi⟩

/-! ### The circuit does not depend on the witness -/

theorem uniform_preparePi (v : Nat) : Uniform (F := F) (· = ·) (preparePi v) (preparePi v) := by
  intro cs cs2 he
  have he' := he
  simp only [CS.shape, CS.mk.injEq] at he'
  obtain ⟨e1, e2, e3, e4, e5, -⟩ := he'
  unfold preparePi insertConstantGate assertVars pushGate
  simp only [Bind.bind, StateT.bind, e1, e2, e3, e4]
  split
  · exact Option.Rel.some ⟨trivial, by simp [CS.shape, e1, e2, e3, e4, e5]⟩
  · exact Option.Rel.none

theorem uniform_attach : Uniform (F := F) (· = ·) attachBoolean attachBoolean := by
  intro cs cs2 he
  simp only [CS.shape, CS.mk.injEq] at he
  obtain ⟨e1, e2, e3, e4, e5, -⟩ := he
  unfold attachBoolean
  rw [e1]
  split
  · exact Option.Rel.none
  · exact Option.Rel.some ⟨rfl, by simp [CS.shape, e1, e2, e3, e4, e5]⟩

theorem uniform_newVars (n : Nat) (f g : (Nat → F) → List F) (hf : ∀ w, n ≤ (f w).length)
    (hg : ∀ w, n ≤ (g w).length) : Uniform (· = ·) (newVars n f) (newVars n g) := by
  intro cs cs2 he
  simp only [CS.shape, CS.mk.injEq] at he
  obtain ⟨e1, e2, e3, e4, e5, -⟩ := he
  unfold newVars
  simp only
  rw [if_neg (by have := hf cs.value; omega), if_neg (by have := hg cs2.value; omega)]
  exact Option.Rel.some ⟨by simp only; rw [e2], by simp [CS.shape, e1, e2, e3, e4, e5]⟩

theorem pad_mono {cs cs' : CS F} {u : Unit} (h : pad cs = some (u, cs')) : Mono cs cs' [] := by
  unfold pad at h
  simp only [Option.some.injEq, Prod.mk.injEq, true_and] at h
  subst h
  exact ⟨List.prefix_append _ _, le_refl _, fun _ h => h, by simp, ⟨[], by simp, by simp⟩, List.prefix_refl _⟩

theorem sound_pad : Sound (pad : Build F Unit) (fun _ _ => True) := by
  intro cs a cs' hw hm
  obtain ⟨cs1, e, w1, -, -⟩ := pad_sat cs hw
  rw [hm] at e
  simp only [Option.some.injEq, Prod.mk.injEq, true_and] at e
  subst e
  exact ⟨w1, [], pad_mono hm, fun _ _ _ => ⟨rfl, trivial⟩⟩

theorem runs_pad (cs : CS F) : Runs pad cs (fun _ _ => True) := by
  intro hw hs
  obtain ⟨cs1, e, w1, -, h⟩ := pad_sat cs hw
  have mo := pad_mono e
  refine ⟨(), cs1, [], e, w1, ?_, mo, rfl, trivial⟩
  unfold pad at e
  simp only [Option.some.injEq, Prod.mk.injEq, true_and] at e
  unfold HSat
  rw [h]
  subst e
  exact hs

theorem uniform_pad : Uniform (F := F) (· = ·) pad pad := by
  intro cs cs2 he
  simp only [CS.shape, CS.mk.injEq] at he
  obtain ⟨e1, e2, e3, e4, e5, -⟩ := he
  unfold pad
  exact Option.Rel.some ⟨rfl, by simp [CS.shape, e1, e2, e3, e4, e5]⟩

theorem Uniform.ite {α : Type} {c : Prop} [Decidable c] {ρ : α → α → Prop} {m n m' n' : Build F α}
    (h1 : c → Uniform ρ m m') (h2 : ¬c → Uniform ρ n n') :
    Uniform ρ (if c then m else n) (if c then m' else n') := by
  split
  · exact h1 ‹_›
  · exact h2 ‹_›

theorem uniform_insertLcGate (a b c d o : Nat) (q1 q2 q3 q4 : F) :
    Uniform (· = ·) (insertLcGate a b c d o q1 q2 q3 q4) (insertLcGate a b c d o q1 q2 q3 q4) :=
  Uniform.bind (uniform_assertVars _) (fun _ _ _ => Uniform.bind (uniform_assertVars _) (fun _ _ _ =>
    uniform_pushGate _))

theorem uniform_insertMulGate (l r o : Nat) :
    Uniform (F := F) (· = ·) (insertMulGate l r o) (insertMulGate l r o) :=
  Uniform.bind (uniform_assertVars _) (fun _ _ _ => uniform_pushGate _)

theorem uniform_insertConstantGate (v : Nat) (c : F) :
    Uniform (· = ·) (insertConstantGate v c) (insertConstantGate v c) :=
  Uniform.bind (uniform_assertVars _) (fun _ _ _ => uniform_pushGate _)

theorem uniform_insertBooleanGate (v : Nat) : Uniform (F := F) (· = ·) (insertBooleanGate v) (insertBooleanGate v) :=
  uniform_insertMulGate v v v

theorem uniform_equalV (l r : Nat) : Uniform (F := F) (· = ·) (equalV l r) (equalV l r) :=
  uniform_insertLcGate _ _ _ _ _ _ _ _ _

theorem uniform_linearCombine (a b c d : Nat) (q1 q2 q3 q4 : F) :
    Uniform (· = ·) (linearCombine a b c d q1 q2 q3 q4) (linearCombine a b c d q1 q2 q3 q4) :=
  Uniform.bind (uniform_assertVars _) (fun _ _ _ => Uniform.bind (uniform_newVar _ _) (fun o _ e => by
    subst e
    exact Uniform.bind (uniform_insertLcGate _ _ _ _ _ _ _ _ _) (fun _ _ _ => Uniform.pure _ _ rfl)))

theorem uniform_addV (l r : Nat) : Uniform (F := F) (· = ·) (addV l r) (addV l r) :=
  Uniform.bind (uniform_assertVars _) (fun _ _ _ => Uniform.bind (uniform_newVar _ _) (fun o _ e => by
    subst e
    exact Uniform.bind (uniform_insertLcGate _ _ _ _ _ _ _ _ _) (fun _ _ _ => Uniform.pure _ _ rfl)))

theorem uniform_subV (l r : Nat) : Uniform (F := F) (· = ·) (subV l r) (subV l r) :=
  Uniform.bind (uniform_assertVars _) (fun _ _ _ => Uniform.bind (uniform_newVar _ _) (fun o _ e => by
    subst e
    exact Uniform.bind (uniform_insertLcGate _ _ _ _ _ _ _ _ _) (fun _ _ _ => Uniform.pure _ _ rfl)))

theorem uniform_mulV (l r : Nat) : Uniform (F := F) (· = ·) (mulV l r) (mulV l r) :=
  Uniform.bind (uniform_assertVars _) (fun _ _ _ => Uniform.bind (uniform_newVar _ _) (fun o _ e => by
    subst e
    exact Uniform.bind (uniform_insertMulGate _ _ _) (fun _ _ _ => Uniform.pure _ _ rfl)))

theorem uniform_selectV [DecidableEq F] (a b c : Nat) : Uniform (F := F) (· = ·) (selectV a b c) (selectV a b c) :=
  Uniform.bind (uniform_assertVars _) (fun _ _ _ => Uniform.bind (uniform_newVar _ _) (fun o _ e => by
    subst e
    exact Uniform.bind (uniform_pushGate _) (fun _ _ _ => Uniform.pure _ _ rfl)))

theorem uniform_isEqualOrNotEqual (l r : Nat) :
    Uniform (F := F) (· = ·) (isEqualOrNotEqual l r) (isEqualOrNotEqual l r) := by
  unfold isEqualOrNotEqual
  refine Uniform.bind (uniform_subV l r) (fun d _ e => ?_); subst e
  refine Uniform.bind (uniform_newVar _ _) (fun i _ e => ?_); subst e
  refine Uniform.bind (uniform_mulV _ _) (fun m _ e => ?_); subst e
  refine Uniform.bind (uniform_subV _ _) (fun z _ e => ?_); subst e
  exact Uniform.bind (uniform_insertMulGate _ _ _) (fun _ _ _ => Uniform.pure _ _ rfl)

theorem binaryRepr_length [ScalarRepr F] (x : F) (n : Nat) : n ≤ ((binaryRepr x n).take n).length := by
  by_contra hlt
  push Not at hlt
  cases n with
  | zero => omega
  | succ n =>
    have := (List.getElem?_eq_some_iff.mp (binaryRepr_getElem x (n + 1) n (by omega))).1
    omega

theorem uniform_rangeFinal (b : List Nat) (acc var k : Nat) :
    Uniform (F := F) (· = ·) (rangeFinal b acc var k) (rangeFinal b acc var k) := by
  unfold rangeFinal
  split
  · refine Uniform.bind (Uniform.liftM _) (fun x _ e => ?_); subst e
    exact uniform_insertLcGate _ _ _ _ _ _ _ _ _
  · refine Uniform.bind (Uniform.liftM _) (fun x _ e => ?_); subst e
    refine Uniform.bind (Uniform.liftM _) (fun y _ e => ?_); subst e
    exact uniform_insertLcGate _ _ _ _ _ _ _ _ _
  · refine Uniform.bind (Uniform.liftM _) (fun x _ e => ?_); subst e
    refine Uniform.bind (Uniform.liftM _) (fun y _ e => ?_); subst e
    refine Uniform.bind (Uniform.liftM _) (fun z _ e => ?_); subst e
    exact uniform_insertLcGate _ _ _ _ _ _ _ _ _

theorem uniform_rangeCheck [ScalarRepr F] (var n : Nat) :
    Uniform (F := F) (· = ·) (rangeCheck var n) (rangeCheck var n) := by
  unfold rangeCheck
  refine Uniform.bind (uniform_assertVars _) (fun _ _ _ => Uniform.ite (fun _ => Uniform.failure _) (fun _ => ?_))
  refine Uniform.bind (uniform_newVars _ _ _ (fun w => binaryRepr_length _ _) (fun w => binaryRepr_length _ _))
    (fun b _ e => ?_); subst e
  refine Uniform.bind (Uniform.liftM _) (fun t _ e => ?_); subst e
  refine Uniform.bind (uniform_insertBooleanGate _) (fun _ _ _ => ?_)
  refine Uniform.bind (Uniform.foldlM _ _ _ ?_ _ _ rfl) (fun acc _ e => ?_)
  · intro a _ i _ e
    subst e
    unfold rangeStep
    refine Uniform.bind (Uniform.liftM _) (fun x _ e => ?_); subst e
    refine Uniform.bind (Uniform.liftM _) (fun y _ e => ?_); subst e
    refine Uniform.bind (Uniform.liftM _) (fun z _ e => ?_); subst e
    refine Uniform.bind (uniform_linearCombine _ _ _ _ _ _ _ _) (fun o _ e => ?_); subst e
    exact Uniform.bind uniform_attach (fun _ _ _ => Uniform.pure _ _ rfl)
  · subst e
    refine Uniform.bind (uniform_rangeFinal _ _ _ _) (fun _ _ _ => ?_)
    exact Uniform.bind uniform_attach (fun _ _ _ => Uniform.pure _ _ rfl)

/-! ### C45 -/

/-- C45 (soundness): in every circuit, every assignment satisfying it relates the result of each gadget to its inputs
as documented.  Gadgets that use the constants assume variables 0 and 1 hold 0 and 1 (see C47). -/
theorem C45_gadgets_sound [DecidableEq F] (l r bit : Nat) (c : F) :
    Sound (addV l r : Build F Nat) (fun w o => w o = w l + w r) ∧
    Sound (subV l r : Build F Nat) (fun w o => w o = w l - w r) ∧
    Sound (mulV l r : Build F Nat) (fun w o => w o = w l * w r) ∧
    Sound (equalV l r : Build F Unit) (fun w _ => w 0 = 0 → w l = w r) ∧
    Sound (selectV l r bit : Build F Nat) (fun w o =>
      (w bit = 0 → w o = w l) ∧ (w bit = 1 → w o = w r)) ∧
    Sound (isEqual l r : Build F Nat) (fun w o => w 0 = 0 → w 1 = 1 → w o = if w l = w r then 1 else 0) ∧
    Sound (isNotEqual l r : Build F Nat) (fun w o => w 0 = 0 → w 1 = 1 → w o = if w l = w r then 0 else 1) ∧
    Sound (insertBooleanGate l : Build F Unit) (fun w _ => w l = 0 ∨ w l = 1) ∧
    Sound (insertConstantGate l c : Build F Unit) (fun w _ => w l = c) := by
  refine ⟨sound_addV l r, sound_subV l r, sound_mulV l r, sound_equalV l r, ?_, ?_, ?_, sound_insertBooleanGate l,
    sound_insertConstantGate l c⟩
  · refine (sound_selectV l r bit).cons ?_
    intro w o h
    constructor
    · intro hb; rw [h, hb]; ring
    · intro hb; rw [h, hb]; ring
  · unfold isEqual
    refine Sound.bind (sound_isEqualOrNotEqual l r) (fun p => Sound.pure _ _ ?_)
    intro w h h0 h1
    obtain ⟨a, b⟩ := h h0 h1
    split
    · exact (a ‹_›).1
    · exact (b ‹_›).1
  · unfold isNotEqual
    refine Sound.bind (sound_isEqualOrNotEqual l r) (fun p => Sound.pure _ _ ?_)
    intro w h h0 h1
    obtain ⟨a, b⟩ := h h0 h1
    split
    · exact (a ‹_›).2
    · exact (b ‹_›).2

/-- C45 (completeness): on every circuit whose stored witness satisfies it, the builder does not panic, the new
witness satisfies the new circuit, and the output holds the documented value. -/
theorem C45_gadgets_complete [DecidableEq F] (l r bit : Nat) (x y b : F) (cs : CS F) (hl : Has cs l x)
    (hr : Has cs r y) (hb : Has cs bit b) (h0 : Has cs 0 0) (h1 : Has cs 1 1) :
    Runs (addV l r) cs (fun o cs' => Has cs' o (x + y)) ∧
    Runs (subV l r) cs (fun o cs' => Has cs' o (x - y)) ∧
    Runs (mulV l r) cs (fun o cs' => Has cs' o (x * y)) ∧
    (x = y → Runs (equalV l r) cs (fun _ _ => True)) ∧
    (IsBit b → Runs (selectV l r bit) cs (fun o cs' => Has cs' o (if b = 0 then x else y))) ∧
    Runs (isEqual l r) cs (fun o cs' => Has cs' o (if x = y then 1 else 0)) ∧
    Runs (isNotEqual l r) cs (fun o cs' => Has cs' o (if x = y then 0 else 1)) ∧
    (IsBit x → Runs (insertBooleanGate l) cs (fun _ _ => True)) ∧
    Runs (insertConstantGate l x) cs (fun _ _ => True) := by
  refine ⟨runs_addV l r x y cs hl hr, runs_subV l r x y cs hl hr, runs_mulV l r x y cs hl hr, ?_, ?_, ?_, ?_, ?_,
    runs_insertConstantGate l x cs hl⟩
  · rintro rfl; exact runs_equalV l r x cs h0 hl hr
  · intro h; exact runs_selectV l r bit x y b cs hl hr hb h
  · unfold isEqual
    refine Runs.bind (runs_isEqualOrNotEqual l r x y cs h0 h1 hl hr) ?_
    intro p cs1 _ _ _ h
    exact Runs.pure _ _ _ h.1
  · unfold isNotEqual
    refine Runs.bind (runs_isEqualOrNotEqual l r x y cs h0 h1 hl hr) ?_
    intro p cs1 _ _ _ h
    exact Runs.pure _ _ _ h.2
  · intro h; exact runs_insertBooleanGate l x cs hl h

/-- C45: what later steps add never weakens the constraints: a relation established by a builder holds in every
circuit extending the one it left. -/
theorem C45_relations_persist {α β : Type} {m : Build F α} {R : (Nat → F) → α → Prop} (hm : Sound m R)
    {n : α → Build F β} {S : (Nat → F) → β → List Nat → Prop} (hn : ∀ a, SoundP (n a) S) (cs cs1 cs2 : CS F) (a : α)
    (b : β) (hw : WF cs) (h1 : m cs = some (a, cs1)) (h2 : n a cs1 = some (b, cs2)) (w : Nat → F) (online : List F)
    (hs : Sat cs2 w online) : R w a := by
  obtain ⟨w1, pv, m1, s1⟩ := hm cs a cs1 hw h1
  obtain ⟨w2, pv2, m2, -⟩ := hn a cs1 b cs2 w1 h2
  exact (s1 w online (Sat.mono m2 hs)).2

/-- C45: `add_variables` gives the next variables the given values, in order, and changes nothing else. -/
theorem C45_add_variables (values : List F) (cs : CS F) :
    Runs (addVariables values) cs (fun _ cs' => cs'.numVars = cs.numVars + values.length ∧ cs'.gates = cs.gates ∧
      ∀ i x, values[i]? = some x → Has cs' (cs.numVars + i) x) := by
  intro hw hs
  obtain ⟨vs, cs', pv, e, w1, s1, m1, hpv, hl, -⟩ := runs_newVars values.length (fun _ => values) cs (le_refl _) hw hs
  unfold newVars at e
  simp only [lt_self_iff_false, if_false, List.take_length, Option.some.injEq, Prod.mk.injEq] at e
  obtain ⟨-, rfl⟩ := e
  refine ⟨(), _, pv, rfl, w1, s1, m1, hpv, rfl, rfl, ?_⟩
  intro i x hx
  have hi : i < values.length := (List.getElem?_eq_some_iff.mp hx).1
  refine ⟨by simp only; omega, ?_⟩
  show (cs.witness ++ values)[cs.numVars + i]?.getD 0 = x
  rw [← hw.wit, List.getElem?_append_right (by omega), Nat.add_sub_cancel_left, hx]
  rfl

/-! ### C47 -/

/-- two public variables and the constraint that they are equal -/
def equalCircuit (x y : F) : Build F Unit := do
  let a ← newVar (fun _ => x)
  let b ← newVar (fun _ => y)
  preparePi a
  preparePi b
  equalV a b

/-- the circuit `equalCircuit` builds, whatever its values -/
def equalCircuitGates : List (Gate F) := [constGate 2 0, constGate 3 0, lcGate 2 3 0 0 0 1 (-1) 0 0]

theorem equalCircuit_gates (x y : F) : ∃ cs, equalCircuit x y CS.new = some ((), cs) ∧
    cs.gates = equalCircuitGates ∧ cs.pubVars = [2, 3] ∧ cs.pubCons = [0, 1] ∧ cs.boolIdx = [] :=
  ⟨_, rfl, rfl, rfl, rfl, rfl⟩

/-- C47 is violated: the variables `zero_var` and `one_var` are not constrained by the system.  The circuit that
asserts the equality of its two public inputs is satisfied by an assignment with any two public inputs. -/
theorem C47_equal_not_enforced (x y : F) : ∃ cs, equalCircuit x y CS.new = some ((), cs) ∧
    ∃ w : Nat → F, Sat cs w [x, y] ∧ w 2 = x ∧ w 3 = y := by
  obtain ⟨cs, e, hg, hv, hc, hb⟩ := equalCircuit_gates x y
  refine ⟨cs, e, fun v => if v = 0 then x - y else if v = 2 then x else y, ?_, by simp, by simp⟩
  intro i g h
  rw [hg] at h
  rw [hc, hb]
  simp only [List.not_mem_nil, false_implies, and_true]
  match i with
  | 0 => simp [equalCircuitGates] at h; subst h; simp [constGate_holds, piAt]
  | 1 => simp [equalCircuitGates] at h; subst h; simp [constGate_holds, piAt]
  | 2 =>
    simp [equalCircuitGates] at h; subst h
    have : piAt [0, 1] [x, y] 2 = 0 := by simp [piAt]
    rw [this, lcGate_holds]
    simp
    ring
  | i + 3 => simp [equalCircuitGates] at h

/-- the constraints the system lacks -/
def enforceConstants : Build F Unit := do
  insertConstantGate zeroVar 0
  insertConstantGate oneVar 1

/-- C47 (what holds): once constant gates are added for them, the two variables are 0 and 1 in every satisfying
assignment of every extension, and `equal` forces equality. -/
theorem C47_constants_partial (l r : Nat) :
    Sound (do enforceConstants; equalV l r : Build F Unit) (fun w _ => w 0 = 0 ∧ w 1 = 1 ∧ w l = w r) := by
  unfold enforceConstants
  simp only [bind_assoc]
  refine Sound.bind (sound_insertConstantGate _ _) (fun _ => Sound.bind (sound_insertConstantGate _ _) (fun _ => ?_))
  refine (sound_equalV l r).cons ?_
  intro w _ h h1 h0
  exact ⟨h0, h1, h h0⟩

/-- the stored witness of a fresh system has the right constants -/
theorem new_has : Has (CS.new : CS F) 0 0 ∧ Has (CS.new : CS F) 1 1 := by
  refine ⟨⟨by simp [CS.new], by simp [CS.value, CS.new]⟩, ⟨by simp [CS.new], by simp [CS.value, CS.new]⟩⟩

theorem new_hsat : HSat (CS.new : CS F) := by
  intro i g h
  simp [CS.new] at h

/-- prime fields -/
@[reducible] def zmodRepr (p : Nat) [Fact p.Prime] (h : p ≤ 256 ^ 32) : ScalarRepr (ZMod p) where
  order := p
  val := ZMod.val
  val_lt := ZMod.val_lt
  cast_val := ZMod.natCast_zmod_val
  val_cast := fun _ hn => ZMod.val_cast_of_lt hn
  order_le := h

instance : Fact (Nat.Prime 101) := ⟨by norm_num⟩

instance : ScalarRepr (ZMod 101) := zmodRepr 101 (by norm_num)

/-- the hypotheses are met by a concrete circuit: an addition and a range check on a fresh system -/
example : ∃ o cs, (do
      let a ← newVar (fun _ => (5 : ZMod 101))
      let b ← newVar (fun _ => (6 : ZMod 101))
      let c ← addV a b
      let _ ← rangeCheck c 4
      pure c : Build (ZMod 101) Nat) CS.new = some (o, cs) ∧ WF cs ∧ HSat cs ∧ Has cs o 11 := by
  have : Runs (do
      let a ← newVar (fun _ => (5 : ZMod 101))
      let b ← newVar (fun _ => (6 : ZMod 101))
      let c ← addV a b
      let _ ← rangeCheck c 4
      pure c : Build (ZMod 101) Nat) CS.new (fun o cs => Has cs o 11) := by
    refine Runs.bind (runs_newVar _ _) ?_
    intro a cs1 w0 w1 m1 ha
    refine Runs.bind (runs_newVar _ _) ?_
    intro b cs2 _ w2 m2 hb
    refine Runs.bind (runs_addV a b 5 6 _ (ha.mono w1 m2) hb) ?_
    intro c cs3 _ w3 m3 hc
    refine Runs.bind (runs_rangeCheck c 4 _ _ (by norm_num)
      (((new_has.1.mono w0 m1).mono w1 m2).mono w2 m3) hc (by decide)) ?_
    intro _ cs4 _ _ m4 _
    refine Runs.pure _ _ _ ?_
    have := hc.mono w3 m4
    convert this using 1
    decide
  obtain ⟨o, cs, pv, e, w, s, -, -, h⟩ := this WF.new new_hsat
  exact ⟨o, cs, e, w, s, h⟩

/-- two variables added at once, then multiplied -/
example : Runs (do addVariables [(5 : ZMod 101), 9]; mulV 2 3 : Build (ZMod 101) Nat) CS.new
    (fun o cs => Has cs o 45) := by
  refine Runs.bind (C45_add_variables _ _) ?_
  intro _ cs1 _ _ _ h
  exact runs_mulV 2 3 5 9 cs1 (h.2.2 0 5 rfl) (h.2.2 1 9 rfl)

/-- and a range check that no assignment satisfies: 16 is not below `2^4` -/
example (b : List Nat) (cs cs' : CS (ZMod 101)) (hw : WF cs) (e : rangeCheck 5 4 cs = some (b, cs'))
    (w : Nat → ZMod 101) (online : List (ZMod 101)) (hs : Sat cs' w online) : w 5 ≠ 16 := by
  intro h
  obtain ⟨_, _, _, hr⟩ := C46_range_check_exact (F := ZMod 101) 5 4 (by show 2 ^ 4 ≤ 101; norm_num) cs b cs' hw e
  have := (hr w online hs).2.2.1
  rw [h] at this
  exact absurd this (by decide)

end Verif.Plonk
