import Mathlib.Data.Fintype.Prod
import Mathlib.Data.Fintype.Card
import Mathlib.Algebra.Field.Basic
import Mathlib.Tactic.Ring
import Mathlib.Tactic.LinearCombination
import Verif.Res
import Verif.Bytes
import Verif.Plonk.Arith

/-!
The constraint systems of the external crates `bulletproofs` (Ristretto) and `ark_bulletproofs_secq256k1`, as far as the
gadgets of crypto/src/bulletproofs use them: `allocate`, `allocate_multiplier`, `constrain`, `multiply`,
`specify_randomized_constraints`, `challenge_scalar`.

Both crates run the same gadget code twice, in the prover with values and in the verifier without.  The model runs it on
the values of the variables: a variable or linear combination *is* its value.  In the prover (`stream = none`) the value
of an allocated variable is the one the gadget passes; in the verifier (`stream = some s`) the passed value is ignored
and the variable gets the next element of `s`, so that `s` ranges over everything a dishonest prover can assign.
Randomized constraints are functions of the challenges drawn after all these variables are committed to; `multiply`
inside them adds no freedom, its wires are forced to the two operands and their product.  The proof system itself
(a proof is accepted only if the prover knows an assignment satisfying the constraints at the drawn challenges) is the
external crates' claim and not modelled.
-/

namespace Verif.R1cs

/-- at most three challenges are drawn by a closure, in this order -/
abbrev Chal (F : Type) := F × F × F

/-- a closure handed to `specify_randomized_constraints`: from the challenges to the values constrained to zero -/
abbrev Rand (F : Type) := Chal F → Res (List F)

/-- the state of a constraint system: `allocs` are the values allocated so far, `cons` the values of the linear
combinations constrained to zero, `rand` the deferred closures -/
structure St (F : Type) where
  stream : Option (List F)
  allocs : List F
  cons : List F
  rand : List (Rand F)

abbrev M (F α : Type) := St F → Res (α × St F)

section
variable {F α β : Type} [Field F]

/-- no effect -/
def ret (a : α) : M F α := fun st => .ok (a, st)

/-- sequencing -/
def andThen (m : M F α) (f : α → M F β) : M F β := fun st =>
  match m st with
  | .ok (a, st') => f a st'
  | .err => .err
  | .panic => .panic

instance : Monad (M F) where
  pure := ret
  bind := andThen

/-- an `Err` is returned -/
def fail : M F α := fun _ => .err

/-- a panic -/
def crash : M F α := fun _ => .panic

/-- `cs.allocate(assignment)`: the prover needs an assignment, the verifier ignores it -/
def allocate (v : Option F) : M F F := fun st =>
  match st.stream with
  | none => match v with
    | none => .err
    | some x => .ok (x, { st with allocs := st.allocs ++ [x] })
  | some [] => .err
  | some (x :: s) => .ok (x, { st with stream := some s, allocs := st.allocs ++ [x] })

/-- `cs.allocate_multiplier(assignment)`: a multiplication gate with fresh left and right wires -/
def allocateMultiplier (v : Option (F × F)) : M F (F × F × F) := do
  let a ← allocate (v.map Prod.fst)
  let b ← allocate (v.map Prod.snd)
  pure (a, b, a * b)

/-- `cs.constrain(lc)` -/
def constrain (x : F) : M F Unit := fun st => .ok ((), { st with cons := st.cons ++ [x] })

/-- `cs.specify_randomized_constraints(closure)` -/
def specify (f : Rand F) : M F Unit := fun st => .ok ((), { st with rand := st.rand ++ [f] })

/-- the closure returned `Ok` and constrained only zeros -/
def Holds (r : Res (List F)) : Prop := ∃ l, r = .ok l ∧ ∀ c ∈ l, c = 0

/-- all constraints are met at the challenges `ch i` of the `i`-th closure -/
def Satisfied (st : St F) (ch : Nat → Chal F) : Prop :=
  (∀ c ∈ st.cons, c = 0) ∧ ∀ (i : Nat) f, st.rand[i]? = some f → Holds (f (ch i))

/-- the verifier's system when the prover assigns `s` -/
def verifierWith (s : List F) : St F := { stream := some s, allocs := [], cons := [], rand := [] }

/-- the prover's system -/
def proverStart : St F := { stream := none, allocs := [], cons := [], rand := [] }

/-! ### soundness calculus -/

/-- a closure that holds for at most `K · |F|²` of the `|F|³` challenges -/
def Few [Fintype F] (K : Nat) (f : Rand F) : Prop :=
  ∃ bad : Finset (Chal F), bad.card ≤ K * Fintype.card F ^ 2 ∧ ∀ c, Holds (f c) → c ∈ bad

theorem Few.mono [Fintype F] {K K' : Nat} (h : K ≤ K') {f : Rand F} (hf : Few K f) : Few K' f := by
  obtain ⟨bad, hc, hb⟩ := hf
  exact ⟨bad, hc.trans (Nat.mul_le_mul_right _ h), hb⟩

/-- Whatever is assigned: if all constraints added by `m` hold and every closure added by it satisfies `G`, then the result is
related by `P`. -/
def SoundR (G : Rand F → Prop) (m : M F α) (P : α → Prop) : Prop :=
  ∀ st a st', m st = .ok (a, st') → ∃ A B, st'.cons = st.cons ++ A ∧ st'.rand = st.rand ++ B ∧
    ((∀ c ∈ A, c = 0) → (∀ f ∈ B, G f) → P a)

theorem SoundR.ret {G : Rand F → Prop} {a : α} {P : α → Prop} (h : P a) : SoundR (F := F) G (pure a : M F α) P := by
  intro st b st' hr
  change Res.ok (a, st) = Res.ok (b, st') at hr
  cases hr
  exact ⟨[], [], by simp, by simp, fun _ _ => h⟩

theorem bind_ok_iff {m : M F α} {f : α → M F β} {st st' : St F} {b : β} :
    (m >>= f) st = .ok (b, st') ↔ ∃ a st1, m st = .ok (a, st1) ∧ f a st1 = .ok (b, st') := by
  change andThen m f st = _ ↔ _
  unfold andThen
  cases h : m st with
  | ok p => obtain ⟨a, s⟩ := p; simp
  | err => simp
  | panic => simp

theorem SoundR.bind {G : Rand F → Prop} {m : M F α} {f : α → M F β} {P : α → Prop} {Q : β → Prop}
    (hm : SoundR G m P) (hf : ∀ a, SoundR G (f a) (fun b => P a → Q b)) : SoundR G (m >>= f) Q := by
  intro st b st' hr
  obtain ⟨a, st1, h1, h2⟩ := bind_ok_iff.1 hr
  obtain ⟨A, B, c1, r1, p1⟩ := hm _ _ _ h1
  obtain ⟨A', B', c2, r2, p2⟩ := hf a _ _ _ h2
  refine ⟨A ++ A', B ++ B', by rw [c2, c1, List.append_assoc], by rw [r2, r1, List.append_assoc], fun hA hB => ?_⟩
  exact p2 (fun c hc => hA c (List.mem_append_right _ hc)) (fun f hf => hB f (List.mem_append_right _ hf))
    (p1 (fun c hc => hA c (List.mem_append_left _ hc)) (fun f hf => hB f (List.mem_append_left _ hf)))

theorem SoundR.cons {G : Rand F → Prop} {m : M F α} {P Q : α → Prop} (hm : SoundR G m P) (h : ∀ a, P a → Q a) :
    SoundR G m Q := by
  intro st a st' hr
  obtain ⟨A, B, c1, r1, p1⟩ := hm _ _ _ hr
  exact ⟨A, B, c1, r1, fun hA hB => h a (p1 hA hB)⟩

theorem SoundR.mono {G G' : Rand F → Prop} (h : ∀ f, G' f → G f) {m : M F α} {P : α → Prop} (hm : SoundR G m P) :
    SoundR G' m P := by
  intro st a st' hr
  obtain ⟨A, B, c1, r1, p1⟩ := hm _ _ _ hr
  exact ⟨A, B, c1, r1, fun hA hB => p1 hA fun f hf => h f (hB f hf)⟩

theorem SoundR.fail {G : Rand F → Prop} {P : α → Prop} : SoundR (F := F) G (fail : M F α) P := by
  intro st a st' hr; simp [R1cs.fail] at hr

theorem SoundR.crash {G : Rand F → Prop} {P : α → Prop} : SoundR (F := F) G (crash : M F α) P := by
  intro st a st' hr; simp [R1cs.crash] at hr

theorem soundR_allocate {G : Rand F → Prop} (v : Option F) : SoundR (F := F) G (allocate v) (fun _ => True) := by
  intro st a st' hr
  refine ⟨[], [], ?_, ?_, fun _ _ => trivial⟩ <;>
  · unfold allocate at hr
    cases hs : st.stream with
    | none =>
      rw [hs] at hr
      cases v with
      | none => simp at hr
      | some x => simp only [Res.ok.injEq, Prod.mk.injEq] at hr; simp [← hr.2]
    | some l =>
      rw [hs] at hr
      cases l with
      | nil => simp at hr
      | cons x s => simp only [Res.ok.injEq, Prod.mk.injEq] at hr; simp [← hr.2]

theorem soundR_allocateMultiplier {G : Rand F → Prop} (v : Option (F × F)) :
    SoundR (F := F) G (allocateMultiplier v) (fun t => t.2.2 = t.1 * t.2.1) :=
  SoundR.bind (soundR_allocate _) fun _ => SoundR.bind (soundR_allocate _) fun _ => SoundR.ret fun _ _ => rfl

theorem soundR_constrain {G : Rand F → Prop} (x : F) : SoundR (F := F) G (constrain x) (fun _ => x = 0) := by
  intro st a st' hr
  simp only [constrain, Res.ok.injEq, Prod.mk.injEq] at hr
  exact ⟨[x], [], by simp [← hr.2], by simp [← hr.2], fun h _ => h x (by simp)⟩

theorem soundR_specify {G : Rand F → Prop} (f : Rand F) : SoundR (F := F) G (specify f) (fun _ => G f) := by
  intro st a st' hr
  simp only [specify, Res.ok.injEq, Prod.mk.injEq] at hr
  exact ⟨[], [f], by simp [← hr.2], by simp [← hr.2], fun _ h => h f (by simp)⟩

/-- a loop -/
def forM' (l : List β) (f : α → β → M F α) (a : α) : M F α :=
  match l with
  | [] => pure a
  | b :: l => do
    let a ← f a b
    forM' l f a

theorem SoundR.forM' {G : Rand F → Prop} {f : α → β → M F α} (I : List β → α → Prop) (l : List β) (a : α)
    (h : ∀ pre b, ∀ a, SoundR G (f a b) (fun a' => I pre a → I (pre ++ [b]) a')) :
    SoundR G (R1cs.forM' l f a) (fun a' => I [] a → I l a') := by
  suffices H : ∀ pre a, SoundR G (R1cs.forM' l f a) (fun a' => I pre a → I (pre ++ l) a') by
    simpa using H [] a
  induction l with
  | nil => intro pre a; exact SoundR.ret (fun h => by simpa using h)
  | cons b l ih =>
    intro pre a
    refine SoundR.bind (h pre b a) fun a' => (ih (pre ++ [b]) a').cons ?_
    intro a'' h1 h2 h3
    simpa using h1 (h2 h3)

/-! ### completeness calculus -/

/-- The honest run `mp` of the prover succeeds with a result related by `P`, adds only constraints that hold, whatever the
challenges are; and the verifier's run `mv` on the values the prover allocated gives the same result and constraints. -/
def Complete (mp mv : M F α) (P : α → Prop) : Prop :=
  ∃ a L A B, P a ∧ (∀ c ∈ A, c = 0) ∧ (∀ f ∈ B, ∀ ch, Holds (f ch)) ∧
    (∀ st : St F, st.stream = none →
      mp st = .ok (a, { st with allocs := st.allocs ++ L, cons := st.cons ++ A, rand := st.rand ++ B })) ∧
    (∀ (st : St F) rest, st.stream = some (L ++ rest) →
      mv st = .ok (a, { stream := some rest, allocs := st.allocs ++ L, cons := st.cons ++ A, rand := st.rand ++ B }))

theorem Complete.ret {a : α} {P : α → Prop} (h : P a) : Complete (F := F) (pure a) (pure a) P :=
  ⟨a, [], [], [], h, by simp, by simp, fun st _ => by simp [Pure.pure, R1cs.ret],
    fun st rest hs => by
      obtain ⟨s, al, c, r⟩ := st
      simp only at hs
      simp [Pure.pure, R1cs.ret, hs]⟩

theorem Complete.bind {mp mv : M F α} {fp fv : α → M F β} {P : α → Prop} {Q : β → Prop}
    (hm : Complete mp mv P) (hf : ∀ a, P a → Complete (fp a) (fv a) Q) : Complete (mp >>= fp) (mv >>= fv) Q := by
  obtain ⟨a, L, A, B, p, hA, hB, h1, h2⟩ := hm
  obtain ⟨b, L', A', B', q, hA', hB', h1', h2'⟩ := hf a p
  refine ⟨b, L ++ L', A ++ A', B ++ B', q, ?_, ?_, ?_, ?_⟩
  · intro c hc
    rcases List.mem_append.1 hc with h | h
    · exact hA c h
    · exact hA' c h
  · intro f hc
    rcases List.mem_append.1 hc with h | h
    · exact hB f h
    · exact hB' f h
  · intro st hs
    rw [bind_ok_iff]
    exact ⟨a, _, h1 st hs, (h1' ⟨st.stream, st.allocs ++ L, st.cons ++ A, st.rand ++ B⟩ hs).trans
      (by simp [List.append_assoc])⟩
  · intro st rest hs
    rw [List.append_assoc] at hs
    rw [bind_ok_iff]
    exact ⟨a, _, h2 st _ hs, by rw [h2' _ rest rfl]; simp [List.append_assoc]⟩

theorem Complete.cons {mp mv : M F α} {P Q : α → Prop} (hm : Complete mp mv P) (h : ∀ a, P a → Q a) :
    Complete mp mv Q := by
  obtain ⟨a, L, A, B, p, r⟩ := hm
  exact ⟨a, L, A, B, h a p, r⟩

theorem complete_allocate (x : F) (v : Option F) : Complete (allocate (some x)) (allocate v) (fun y => y = x) :=
  ⟨x, [x], [], [], rfl, by simp, by simp, fun st hs => by simp [allocate, hs],
    fun st rest hs => by simp [allocate, hs]⟩

theorem complete_allocateMultiplier (x y : F) (v : Option (F × F)) :
    Complete (allocateMultiplier (some (x, y))) (allocateMultiplier v) (fun t => t = (x, y, x * y)) :=
  Complete.bind (complete_allocate x _) fun _ ha => Complete.bind (complete_allocate y _) fun _ hb =>
    Complete.ret (by rw [ha, hb])

theorem complete_constrain {x : F} (h : x = 0) : Complete (constrain x) (constrain x) (fun _ => True) :=
  ⟨(), [], [x], [], trivial, by simpa using h, by simp, fun st _ => by simp [constrain],
    fun st rest hs => by simpa [constrain] using hs⟩

theorem complete_specify {f : Rand F} (h : ∀ c, Holds (f c)) : Complete (specify f) (specify f) (fun _ => True) :=
  ⟨(), [], [], [f], trivial, by simp, by simpa using h, fun st _ => by simp [specify],
    fun st rest hs => by simpa [specify] using hs⟩

theorem Complete.forM' {fp fv : α → β → M F α} (I : List β → α → Prop) (l : List β) (a : α) (h0 : I [] a)
    (h : ∀ pre b post, l = pre ++ b :: post → ∀ a, I pre a → Complete (fp a b) (fv a b) (fun a' => I (pre ++ [b]) a')) :
    Complete (R1cs.forM' l fp a) (R1cs.forM' l fv a) (fun a' => I l a') := by
  suffices H : ∀ post pre a, l = pre ++ post → I pre a →
      Complete (R1cs.forM' post fp a) (R1cs.forM' post fv a) (fun a' => I l a') from H l [] a rfl h0
  intro post
  induction post with
  | nil => intro pre a hl hi; exact Complete.ret (by simpa [hl] using hi)
  | cons b post ih =>
    intro pre a hl hi
    refine Complete.bind (h pre b post hl a hi) fun a' ha' => ih (pre ++ [b]) a' (by simpa using hl) ha'

/-- what completeness means for a whole proof: with the values the prover allocates, the verifier's constraints are met
at all challenges -/
theorem Complete.satisfied {mp mv : M F α} {P : α → Prop} (h : Complete mp mv P) :
    ∃ a stp stv, mp proverStart = .ok (a, stp) ∧ mv (verifierWith stp.allocs) = .ok (a, stv) ∧ P a ∧
      stv.stream = some [] ∧ ∀ ch, Satisfied stp ch ∧ Satisfied stv ch := by
  obtain ⟨a, L, A, B, p, hA, hB, h1, h2⟩ := h
  refine ⟨a, _, _, h1 proverStart rfl, h2 _ [] ?_, p, rfl, fun ch => ⟨⟨?_, ?_⟩, ⟨?_, ?_⟩⟩⟩
  · simp [verifierWith, proverStart]
  · simpa [proverStart] using hA
  · intro i f hf
    exact hB f (List.mem_of_getElem? (by simpa [proverStart] using hf)) _
  · simpa [verifierWith] using hA
  · intro i f hf
    exact hB f (List.mem_of_getElem? (by simpa [verifierWith] using hf)) _

end
end Verif.R1cs
