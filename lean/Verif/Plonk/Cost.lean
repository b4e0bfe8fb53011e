import Verif.Plonk.Adv
import Verif.SimFr.Model

/-!
What builders add to a constraint system: numbers of gates and variables and the positions of the public inputs.
Used for C93 (`Verif/Anon/Size.lean`).
-/

namespace Verif.Plonk

/-- What a builder adds: gates, variables and the gates that carry public inputs, counted from the number of gates
before it. -/
structure Cost where
  gates : Nat
  vars : Nat
  pubs : List Nat
deriving DecidableEq, Repr

namespace Cost

/-- one builder after another -/
def seq (a b : Cost) : Cost := ⟨a.gates + b.gates, a.vars + b.vars, a.pubs ++ b.pubs.map (a.gates + ·)⟩

/-- nothing -/
def zero : Cost := ⟨0, 0, []⟩

/-- a list of builders in order -/
def sum (l : List Cost) : Cost := l.foldr seq zero

@[simp] theorem zero_seq (a : Cost) : seq zero a = a := by simp [seq, zero]

@[simp] theorem seq_zero (a : Cost) : seq a zero = a := by simp [seq, zero]

theorem seq_assoc (a b c : Cost) : seq (seq a b) c = seq a (seq b c) := by
  simp [seq, Nat.add_assoc, Function.comp_def]

@[simp] theorem sum_nil : sum [] = zero := rfl

@[simp] theorem sum_cons (a : Cost) (l : List Cost) : sum (a :: l) = seq a (sum l) := rfl

/-- many builders that make nothing public -/
theorem sum_map_plain {α : Type} (g v : α → Nat) (l : List α) :
    sum (l.map (fun x => ⟨g x, v x, []⟩)) = ⟨(l.map g).sum, (l.map v).sum, []⟩ := by
  induction l with
  | nil => rfl
  | cons a l ih => rw [List.map_cons, sum_cons, ih]; simp [seq]

/-- the same builder many times -/
theorem sum_map_const {α : Type} (g v : Nat) (l : List α) :
    sum (l.map (fun _ => ⟨g, v, []⟩)) = ⟨l.length * g, l.length * v, []⟩ := by
  rw [sum_map_plain]
  simp

/-- the same builder many times, each making gate `k` of its gates public -/
theorem sum_map_pub {α : Type} (g v k : Nat) (l : List α) :
    sum (l.map (fun _ => ⟨g, v, [k]⟩)) = ⟨l.length * g, l.length * v, (List.range l.length).map (fun i => i * g + k)⟩ := by
  induction l with
  | nil => simp [zero]
  | cons a l ih =>
    rw [List.map_cons, sum_cons, ih]
    simp only [seq, List.length_cons, Cost.mk.injEq]
    refine ⟨by ring, by ring, ?_⟩
    rw [List.range_succ_eq_map]
    simp only [List.map_cons, List.map_map, List.cons_append, List.nil_append, Nat.zero_mul, Nat.zero_add]
    refine congrArg _ (List.map_congr_left (fun i _ => ?_))
    simp only [Function.comp]
    rw [Nat.succ_mul]
    omega

end Cost

set_option linter.unusedSectionVars false

variable {F : Type} [Field F]

/-- every successful run of `m` adds `c`, and its result satisfies `Q` -/
structure Costs {α : Type} (m : Build F α) (c : Cost) (Q : α → Prop) : Prop where
  run : ∀ cs a cs', m cs = some (a, cs') → cs'.gates.length = cs.gates.length + c.gates ∧
    cs'.numVars = cs.numVars + c.vars ∧ cs'.pubCons = cs.pubCons ++ c.pubs.map (cs.gates.length + ·) ∧ Q a

/-- no statement about the result -/
abbrev Any {α : Type} : α → Prop := fun _ => True

namespace Costs

theorem cons {α : Type} {m : Build F α} {c c' : Cost} {Q Q' : α → Prop} (h : Costs m c Q) (e : c = c')
    (hq : ∀ a, Q a → Q' a) : Costs m c' Q' := by
  subst e
  constructor
  intro cs a cs' hm
  obtain ⟨h1, h2, h3, h4⟩ := h.run cs a cs' hm
  exact ⟨h1, h2, h3, hq a h4⟩

theorem cost {α : Type} {m : Build F α} {c c' : Cost} {Q : α → Prop} (h : Costs m c Q) (e : c = c') : Costs m c' Q :=
  h.cons e (fun _ q => q)

theorem any {α : Type} {m : Build F α} {c : Cost} {Q : α → Prop} (h : Costs m c Q) : Costs m c Any :=
  h.cons rfl (fun _ _ => trivial)

theorem pure {α : Type} (a : α) (Q : α → Prop) (h : Q a) : Costs (Pure.pure a : Build F α) .zero Q := by
  constructor
  intro cs b cs' hm
  simp only [Pure.pure, StateT.pure, Option.some.injEq, Prod.mk.injEq] at hm
  obtain ⟨rfl, rfl⟩ := hm
  exact ⟨rfl, rfl, by simp [Cost.zero], h⟩

theorem pureAny {α : Type} (a : α) : Costs (Pure.pure a : Build F α) .zero Any := pure a _ trivial

theorem bind {α β : Type} {m : Build F α} {f : α → Build F β} {c d : Cost} {Q : α → Prop} {Q' : β → Prop}
    (h : Costs m c Q) (hf : ∀ a, Q a → Costs (f a) d Q') : Costs (m >>= f) (c.seq d) Q' := by
  constructor
  intro cs b cs' hm
  obtain ⟨⟨a, cs1⟩, e1, e2⟩ := Option.bind_eq_some_iff.mp hm
  obtain ⟨h1, h2, h3, h4⟩ := h.run cs a cs1 e1
  obtain ⟨g1, g2, g3, g4⟩ := (hf a h4).run cs1 b cs' e2
  refine ⟨?_, ?_, ?_, g4⟩
  · rw [g1, h1]; simp [Cost.seq, Nat.add_assoc]
  · rw [g2, h2]; simp [Cost.seq, Nat.add_assoc]
  · rw [g3, h3, h1]; simp [Cost.seq, Nat.add_assoc, Function.comp_def]

theorem liftM {α : Type} (o : Option α) : Costs (_root_.liftM o : Build F α) .zero (fun a => o = some a) := by
  constructor
  intro cs a cs' hm
  cases o with
  | none => simp [_root_.liftM, monadLift, MonadLift.monadLift, StateT.lift] at hm
  | some x =>
    simp [_root_.liftM, monadLift, MonadLift.monadLift, StateT.lift] at hm
    obtain ⟨rfl, rfl⟩ := hm
    exact ⟨rfl, rfl, by simp [Cost.zero], rfl⟩

theorem fail {α : Type} (c : Cost) (Q : α → Prop) : Costs (failure : Build F α) c Q := by
  constructor
  intro cs a cs' hm
  simp [failure] at hm
  exact absurd hm (by unfold StateT.failure; simp [failure])

theorem ite {α : Type} {P : Prop} [Decidable P] {m n : Build F α} {c : Cost} {Q : α → Prop} (h : P → Costs m c Q)
    (h' : ¬ P → Costs n c Q) : Costs (if P then m else n) c Q := by
  split
  · exact h ‹_›
  · exact h' ‹_›

theorem mapM {α β : Type} (f : α → Build F β) (c : α → Cost) (Q : α → β → Prop) (l : List α)
    (h : ∀ a ∈ l, Costs (f a) (c a) (Q a)) : Costs (l.mapM f) (.sum (l.map c)) (fun bs => List.Forall₂ Q l bs) := by
  induction l with
  | nil =>
    rw [List.mapM_nil]
    exact Costs.pure _ _ List.Forall₂.nil
  | cons a l ih =>
    rw [List.mapM_cons]
    have := Costs.bind (h a (by simp)) (fun b hb => Costs.bind (ih (fun x hx => h x (by simp [hx])))
      (fun bs hbs => Costs.pure (F := F) (b :: bs) (fun bs => List.Forall₂ Q (a :: l) bs) (List.Forall₂.cons hb hbs)))
    exact this.cost (by simp)

theorem foldlM {α β : Type} (f : β → α → Build F β) (c : α → Cost) (I : β → Prop) (l : List α) (b : β) (hb : I b)
    (h : ∀ b, I b → ∀ a ∈ l, Costs (f b a) (c a) I) : Costs (l.foldlM f b) (.sum (l.map c)) I := by
  induction l generalizing b with
  | nil =>
    rw [List.foldlM_nil]
    exact Costs.pure _ _ hb
  | cons a l ih =>
    rw [List.foldlM_cons]
    have := Costs.bind (h b hb a (by simp)) (fun b' hb' => ih b' hb' (fun b hb x hx => h b hb x (by simp [hx])))
    exact this

/-- the number of results of a map -/
theorem mapM_len {α β : Type} (f : α → Build F β) (c : α → Cost) (l : List α) (h : ∀ a ∈ l, Costs (f a) (c a) Any) :
    Costs (l.mapM f) (.sum (l.map c)) (fun bs => bs.length = l.length) :=
  (Costs.mapM f c (fun _ _ => True) l h).cons rfl (fun _ q => q.length_eq.symm)

theorem foldlM_any {α β : Type} (f : β → α → Build F β) (c : α → Cost) (l : List α) (b : β)
    (h : ∀ b, ∀ a ∈ l, Costs (f b a) (c a) Any) : Costs (l.foldlM f b) (.sum (l.map c)) Any :=
  Costs.foldlM f c Any l b trivial (fun b _ a ha => h b a ha)

end Costs

/-! ### Gadgets -/

section
open Costs (pureAny foldlM_any fail)

theorem costs_assertVars (vs : List Nat) : Costs (assertVars vs : Build F Unit) .zero Any := by
  constructor
  intro cs a cs' hm
  unfold assertVars at hm
  split at hm
  · simp only [Option.some.injEq, Prod.mk.injEq] at hm
    obtain ⟨-, rfl⟩ := hm
    exact ⟨rfl, rfl, by simp [Cost.zero], trivial⟩
  · cases hm

theorem costs_pushGate (g : Gate F) : Costs (pushGate g) ⟨1, 0, []⟩ Any := by
  constructor
  intro cs a cs' hm
  simp only [pushGate, Option.some.injEq, Prod.mk.injEq] at hm
  obtain ⟨-, rfl⟩ := hm
  exact ⟨by simp, rfl, by simp, trivial⟩

theorem costs_newVar (f : (Nat → F) → F) : Costs (newVar f) ⟨0, 1, []⟩ Any := by
  constructor
  intro cs a cs' hm
  simp only [newVar, Option.some.injEq, Prod.mk.injEq] at hm
  obtain ⟨-, rfl⟩ := hm
  exact ⟨rfl, rfl, by simp, trivial⟩

theorem costs_newVars (n : Nat) (f : (Nat → F) → List F) : Costs (newVars n f) ⟨0, n, []⟩ (fun l => l.length = n) := by
  constructor
  intro cs a cs' hm
  unfold newVars at hm
  dsimp only at hm
  split at hm
  · cases hm
  · simp only [Option.some.injEq, Prod.mk.injEq] at hm
    obtain ⟨rfl, rfl⟩ := hm
    exact ⟨rfl, rfl, by simp, by simp⟩

theorem costs_attachBoolean : Costs (attachBoolean : Build F Unit) .zero Any := by
  constructor
  intro cs a cs' hm
  unfold attachBoolean at hm
  split at hm
  · cases hm
  · simp only [Option.some.injEq, Prod.mk.injEq] at hm
    obtain ⟨-, rfl⟩ := hm
    exact ⟨rfl, rfl, by simp [Cost.zero], trivial⟩

theorem costs_insertLcGate (a b c d o : Nat) (q1 q2 q3 q4 : F) : Costs (insertLcGate a b c d o q1 q2 q3 q4) ⟨1, 0, []⟩ Any :=
  Costs.cost (Costs.bind (costs_assertVars _) (fun _ _ => Costs.bind (costs_assertVars _) (fun _ _ => costs_pushGate _))) rfl

theorem costs_insertMulGate (l r o : Nat) : Costs (insertMulGate l r o : Build F Unit) ⟨1, 0, []⟩ Any :=
  Costs.cost (Costs.bind (costs_assertVars _) (fun _ _ => costs_pushGate _)) rfl

theorem costs_insertConstantGate (v : Nat) (c : F) : Costs (insertConstantGate v c) ⟨1, 0, []⟩ Any :=
  Costs.cost (Costs.bind (costs_assertVars _) (fun _ _ => costs_pushGate _)) rfl

/-- a new variable and one gate -/
theorem costs_varGate (vs : List Nat) (f : (Nat → F) → F) (g : Nat → Gate F) :
    Costs (do assertVars vs; let o ← newVar f; pushGate (g o); Pure.pure o : Build F Nat) ⟨1, 1, []⟩ Any :=
  Costs.cost (Costs.bind (costs_assertVars _) (fun _ _ => Costs.bind (costs_newVar _) (fun _ _ => Costs.bind (costs_pushGate _)
    (fun _ _ => pureAny _)))) rfl

theorem costs_linearCombine (a b c d : Nat) (q1 q2 q3 q4 : F) : Costs (linearCombine a b c d q1 q2 q3 q4) ⟨1, 1, []⟩ Any :=
  Costs.cost (Costs.bind (costs_assertVars _) (fun _ _ => Costs.bind (costs_newVar _) (fun _ _ => Costs.bind (costs_insertLcGate ..)
    (fun _ _ => pureAny _)))) rfl

theorem costs_addV (l r : Nat) : Costs (addV l r : Build F Nat) ⟨1, 1, []⟩ Any :=
  Costs.cost (Costs.bind (costs_assertVars _) (fun _ _ => Costs.bind (costs_newVar _) (fun _ _ => Costs.bind (costs_insertLcGate ..)
    (fun _ _ => pureAny _)))) rfl

theorem costs_subV (l r : Nat) : Costs (subV l r : Build F Nat) ⟨1, 1, []⟩ Any :=
  Costs.cost (Costs.bind (costs_assertVars _) (fun _ _ => Costs.bind (costs_newVar _) (fun _ _ => Costs.bind (costs_insertLcGate ..)
    (fun _ _ => pureAny _)))) rfl

theorem costs_mulV (l r : Nat) : Costs (mulV l r : Build F Nat) ⟨1, 1, []⟩ Any :=
  Costs.cost (Costs.bind (costs_assertVars _) (fun _ _ => Costs.bind (costs_newVar _) (fun _ _ => Costs.bind (costs_insertMulGate ..)
    (fun _ _ => pureAny _)))) rfl

theorem costs_equalV (l r : Nat) : Costs (equalV l r : Build F Unit) ⟨1, 0, []⟩ Any := costs_insertLcGate ..

theorem costs_selectV [DecidableEq F] (a b c : Nat) : Costs (selectV a b c : Build F Nat) ⟨1, 1, []⟩ Any :=
  costs_varGate _ _ _

theorem costs_isEqualOrNotEqual (l r : Nat) : Costs (isEqualOrNotEqual l r : Build F (Nat × Nat)) ⟨4, 4, []⟩ Any :=
  Costs.cost (Costs.bind (costs_subV ..) (fun _ _ => Costs.bind (costs_newVar _) (fun _ _ => Costs.bind (costs_mulV ..) (fun _ _ => Costs.bind (costs_subV ..)
    (fun _ _ => Costs.bind (costs_insertMulGate ..) (fun _ _ => pureAny _)))))) rfl

theorem costs_isEqual (l r : Nat) : Costs (isEqual l r : Build F Nat) ⟨4, 4, []⟩ Any :=
  Costs.cost (Costs.bind (costs_isEqualOrNotEqual ..) (fun _ _ => pureAny _)) rfl

theorem costs_preparePi (v : Nat) : Costs (preparePi v : Build F Unit) ⟨1, 0, [0]⟩ Any := by
  constructor
  intro cs a cs' hm
  obtain ⟨h1, h2, h3, -⟩ := (costs_insertConstantGate v (0 : F)).run _ a cs' hm
  refine ⟨h1, h2, ?_, trivial⟩
  rw [h3]
  simp

/-- gates and variables of a range check for `n` bits -/
def rangeCost (n : Nat) : Cost := ⟨2 + (n - 2) / 3, n + (n - 2) / 3, []⟩

theorem costs_rangeStep (b : List Nat) (n acc i : Nat) : Costs (rangeStep b n acc i : Build F Nat) ⟨1, 1, []⟩ Any :=
  Costs.cost (Costs.bind (Costs.liftM _) (fun _ _ => Costs.bind (Costs.liftM _) (fun _ _ => Costs.bind (Costs.liftM _) (fun _ _ => Costs.bind (costs_linearCombine ..)
    (fun _ _ => Costs.bind costs_attachBoolean (fun _ _ => pureAny _)))))) rfl

theorem costs_rangeFinal (b : List Nat) (acc var rem : Nat) : Costs (rangeFinal b acc var rem : Build F Unit) ⟨1, 0, []⟩ Any := by
  unfold rangeFinal
  split
  · exact Costs.bind (Costs.liftM _) (fun _ _ => costs_insertLcGate ..)
  · exact Costs.bind (Costs.liftM _) (fun _ _ => Costs.bind (Costs.liftM _) (fun _ _ => costs_insertLcGate ..))
  · exact Costs.bind (Costs.liftM _) (fun _ _ => Costs.bind (Costs.liftM _) (fun _ _ => Costs.bind (Costs.liftM _) (fun _ _ => costs_insertLcGate ..)))

theorem costs_rangeCheck [ScalarRepr F] (v n : Nat) :
    Costs (rangeCheck v n : Build F (List Nat)) (rangeCost n) (fun l => l.length = n) := by
  unfold rangeCheck
  refine Costs.cost (Costs.bind (costs_assertVars _) (fun _ _ => Costs.ite (fun _ => fail _ _) (fun _ => Costs.bind (costs_newVars ..)
    (fun b hb => Costs.bind (Costs.liftM _) (fun _ _ => Costs.bind (costs_insertMulGate ..) (fun _ _ => Costs.bind
      (foldlM_any _ (fun _ => ⟨1, 1, []⟩) _ _ (fun _ _ _ => costs_rangeStep ..)) (fun _ _ => Costs.bind (costs_rangeFinal ..)
        (fun _ _ => Costs.bind costs_attachBoolean (fun _ _ => Costs.pure b _ hb))))))))) ?_
  rw [Cost.sum_map_const]
  simp [Cost.seq, Cost.zero, rangeCost]
  omega

theorem costs_four (m1 m2 m3 m4 : Build F Nat) (c1 c2 c3 c4 : Cost) (h1 : Costs m1 c1 Any) (h2 : Costs m2 c2 Any)
    (h3 : Costs m3 c3 Any) (h4 : Costs m4 c4 Any) :
    Costs (do let a ← m1; let b ← m2; let c ← m3; let d ← m4; Pure.pure (a, b, c, d) : Build F SV)
      (c1.seq (c2.seq (c3.seq c4))) Any :=
  Costs.cost (Costs.bind h1 (fun _ _ => Costs.bind h2 (fun _ _ => Costs.bind h3 (fun _ _ => (Costs.bind h4 (fun _ _ => pureAny _)).cost (Cost.seq_zero _))))) rfl

theorem costs_rescueStep (e : Nat) (m : St (St F)) (v : SV) (rk : St F × Nat) :
    Costs (rescueStep e m v rk) ⟨if rk.2 % 2 = 0 then 8 else 4, if rk.2 % 2 = 0 then 8 else 4, []⟩ Any := by
  have f1 : ∀ v, Costs (pow5Inv e v : Build F SV) ⟨4, 4, []⟩ Any := fun v =>
    costs_four _ _ _ _ _ _ _ _ (costs_varGate _ _ _) (costs_varGate _ _ _) (costs_varGate _ _ _) (costs_varGate _ _ _)
  have f2 : ∀ v k, Costs (linearOp v m k : Build F SV) ⟨4, 4, []⟩ Any := fun v k =>
    costs_four _ _ _ _ _ _ _ _ (costs_varGate _ _ _) (costs_varGate _ _ _) (costs_varGate _ _ _) (costs_varGate _ _ _)
  have f3 : ∀ v k, Costs (nonLinearOp v m k : Build F SV) ⟨4, 4, []⟩ Any := fun v k =>
    costs_four _ _ _ _ _ _ _ _ (costs_varGate _ _ _) (costs_varGate _ _ _) (costs_varGate _ _ _) (costs_varGate _ _ _)
  unfold rescueStep
  split
  · exact Costs.bind (f1 _) (fun _ _ => f2 _ _)
  · exact f3 _ _

theorem keys_length (p : Rescue.Params F) (key : Rescue.State F) :
    (Rescue.keyScheduling p key).length = 2 * p.numRounds + 1 := by
  have : ∀ (l : List Nat) (s : Rescue.State F × Rescue.State F × List (Rescue.State F)),
      (l.foldl (Rescue.keyStep p) s).2.2.length = s.2.2.length + l.length := by
    intro l
    induction l with
    | nil => intro s; rfl
    | cons a l ih =>
      intro s
      rw [List.foldl_cons, ih]
      simp [Rescue.keyStep]
      omega
  unfold Rescue.keyScheduling
  rw [this]
  simp
  omega

theorem sum_alt (a b : Nat) (n i : Nat) (hi : i % 2 = 0) :
    ((List.range' i (2 * n)).map (fun j => if j % 2 = 0 then a else b)).sum = n * (a + b) := by
  induction n generalizing i with
  | zero => simp
  | succ n ih =>
    rw [show 2 * (n + 1) = 2 * n + 1 + 1 by omega, List.range'_succ, List.range'_succ]
    simp only [List.map_cons, List.sum_cons]
    rw [ih (i + 1 + 1) (by omega), if_pos hi, if_neg (by omega)]
    ring

/-- gates and variables of one Rescue permutation of `R` rounds -/
theorem costs_rescueCircuit (p : Rescue.Params F) (v : SV) :
    Costs (rescueCircuit p v) ⟨4 + 12 * p.numRounds, 4 + 12 * p.numRounds, []⟩ Any := by
  unfold rescueCircuit
  have hl := keys_length p (0, 0, 0, 0)
  generalize Rescue.keyScheduling p (0, 0, 0, 0) = keys at hl
  unfold rescueHash
  split
  · exact fail _ _
  · rename_i k0 ks
    have hks : ks.length = 2 * p.numRounds := by simpa using hl
    have f0 : Costs (addConstantState v k0 : Build F SV) ⟨4, 4, []⟩ Any :=
      costs_four _ _ _ _ _ _ _ _ (costs_varGate _ _ _) (costs_varGate _ _ _) (costs_varGate _ _ _) (costs_varGate _ _ _)
    refine Costs.cost (Costs.bind f0 (fun _ _ => foldlM_any _ (fun rk : St F × Nat => ⟨if rk.2 % 2 = 0 then 8 else 4, if rk.2 % 2 = 0 then 8 else 4, []⟩)
      _ _ (fun _ rk _ => costs_rescueStep _ _ _ rk))) ?_
    have e : ∀ g : Nat → Nat, ks.zipIdx.map (fun rk : St F × Nat => g rk.2) = (List.range' 0 (2 * p.numRounds)).map g := by
      intro g
      rw [show (fun rk : St F × Nat => g rk.2) = g ∘ Prod.snd from rfl, ← List.map_map, List.zipIdx_map_snd, hks]
    rw [Cost.sum_map_plain, e (fun j => if j % 2 = 0 then 8 else 4), sum_alt 8 4 _ 0 rfl]
    simp [Cost.seq]
    omega

end

end Verif.Plonk
