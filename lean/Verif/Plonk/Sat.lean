import Mathlib.Tactic.LinearCombination
import Verif.Plonk.Turbo

/-!
What it means for an assignment to satisfy a constraint system, and a small calculus to reason about circuits
built by the functions of `Verif/Plonk/Turbo.lean`:

* `Sound m R`: every assignment that satisfies the system after `m` (for an arbitrary system before) satisfies
  the relation `R` on the variables `m` returns.  Nothing is assumed about how the assignment was produced.
* `Honest`: the stored witness satisfies the constraints that were added.
* `Uniform m`: the gates produced by `m` do not depend on the witness, so prover and verifier build the same
  circuit.
-/

namespace Verif.Plonk

namespace Spec

variable {F : Type} [Field F]

/-- The TurboPLONK gate equation (documentation of turbo.rs:109-115). -/
def Gate.Holds (g : Gate F) (w : Nat → F) (pi : F) : Prop :=
  g.q1 * w g.w0 + g.q2 * w g.w1 + g.q3 * w g.w2 + g.q4 * w g.w3
    + g.qm1 * (w g.w0 * w g.w1) + g.qm2 * (w g.w2 * w g.w3) + g.qc + pi
    + g.qecc * (w g.w0 * w g.w1 * w g.w2 * w g.w3 * w g.w4)
    + g.qh1 * w g.w0 ^ 5 + g.qh2 * w g.w1 ^ 5 + g.qh3 * w g.w2 ^ 5 + g.qh4 * w g.w3 ^ 5
    = g.qo * w g.w4

/-- the public value attached to gate `i`, zero if there is none -/
def piAt (cons : List Nat) (online : List F) (i : Nat) : F :=
  (cons.zip online).foldl (fun acc e => if e.1 = i then e.2 else acc) 0

/-- A field element that is zero or one. -/
def IsBit (x : F) : Prop := x = 0 ∨ x = 1

/-- The assignment `w` with public inputs `online` satisfies the system: every gate equation, and the boolean
constraints on the second, third and fourth wires of the marked gates (helpers.rs:302-323). -/
def Sat (cs : CS F) (w : Nat → F) (online : List F) : Prop :=
  ∀ i g, cs.gates[i]? = some g →
    Gate.Holds g w (piAt cs.pubCons online i) ∧
    (i ∈ cs.boolIdx → IsBit (w g.w1) ∧ IsBit (w g.w2) ∧ IsBit (w g.w3))

end Spec

open Spec

variable {F : Type} [Field F]

/-- Invariant of the constraint systems the builder produces. -/
structure WF (cs : CS F) : Prop where
  len : cs.pubCons.length = cs.pubVars.length
  pi : ∀ (k c v : Nat), cs.pubCons[k]? = some c → cs.pubVars[k]? = some v →
    cs.gates[c]? = some (constGate v (0 : F))
  nodup : cs.pubCons.Nodup
  bool : ∀ b ∈ cs.boolIdx, b < cs.gates.length
  wit : cs.witness.length = cs.numVars
  wires : ∀ g ∈ cs.gates, ∀ v ∈ g.wires, v < cs.numVars
  two : 2 ≤ cs.numVars

theorem WF.pubCons_lt {cs : CS F} (h : WF cs) : ∀ c ∈ cs.pubCons, c < cs.gates.length := by
  intro c hc
  obtain ⟨k, hk, rfl⟩ := List.mem_iff_getElem.mp hc
  have hv : k < cs.pubVars.length := h.len ▸ hk
  have := h.pi k _ _ (List.getElem?_eq_getElem hk) (List.getElem?_eq_getElem hv)
  exact (List.getElem?_eq_some_iff.mp this).1

theorem WF.new : WF (CS.new : CS F) where
  len := rfl
  pi := by intro k c v h; simp [CS.new] at h
  nodup := by simp [CS.new]
  bool := by simp [CS.new]
  wit := rfl
  wires := by simp [CS.new]
  two := by simp [CS.new]

/-- `cs'` extends `cs`; `pv` are the variables made public in between. -/
structure Mono (cs cs' : CS F) (pv : List Nat) : Prop where
  gates : cs.gates <+: cs'.gates
  vars : cs.numVars ≤ cs'.numVars
  bool : ∀ b ∈ cs.boolIdx, b ∈ cs'.boolIdx
  pub : cs'.pubVars = cs.pubVars ++ pv
  cons : ∃ new, cs'.pubCons = cs.pubCons ++ new ∧ ∀ c ∈ new, cs.gates.length ≤ c
  wit : cs.witness <+: cs'.witness

theorem Mono.refl (cs : CS F) : Mono cs cs [] :=
  ⟨List.prefix_refl _, le_refl _, fun _ h => h, by simp, ⟨[], by simp, by simp⟩, List.prefix_refl _⟩

theorem Mono.trans {a b c : CS F} {p q : List Nat} (h1 : Mono a b p) (h2 : Mono b c q) : Mono a c (p ++ q) := by
  obtain ⟨n1, e1, l1⟩ := h1.cons
  obtain ⟨n2, e2, l2⟩ := h2.cons
  refine ⟨h1.gates.trans h2.gates, h1.vars.trans h2.vars, fun x hx => h2.bool x (h1.bool x hx), ?_, ?_,
    h1.wit.trans h2.wit⟩
  · rw [h2.pub, h1.pub, List.append_assoc]
  · refine ⟨n1 ++ n2, by rw [e2, e1, List.append_assoc], ?_⟩
    intro x hx
    rcases List.mem_append.mp hx with hx | hx
    · exact l1 x hx
    · exact (h1.gates.length_le).trans (l2 x hx)

theorem piAt_append (c new : List Nat) (online : List F) (i : Nat) (h : ∀ x ∈ new, x ≠ i) :
    piAt (c ++ new) online i = piAt c online i := by
  have key : ∀ (l : List Nat), (∀ x ∈ l, x ≠ i) → ∀ (o : List F) (acc : F),
      (l.zip o).foldl (fun acc e => if e.1 = i then e.2 else acc) acc = acc := by
    intro l hl
    induction l with
    | nil => intro o acc; simp
    | cons a l ih =>
      intro o acc
      cases o with
      | nil => simp
      | cons b o =>
        simp only [List.zip_cons_cons, List.foldl_cons]
        rw [if_neg (hl a (by simp))]
        exact ih (fun x hx => hl x (by simp [hx])) o acc
  unfold piAt
  generalize (0 : F) = acc
  induction c generalizing online acc with
  | nil => rw [List.nil_append]; rw [key new h]; simp
  | cons a c ih =>
    cases online with
    | nil => simp
    | cons b o =>
      simp only [List.cons_append, List.zip_cons_cons, List.foldl_cons]
      exact ih o _

/-- Satisfying a larger system means satisfying the smaller one. -/
theorem Sat.mono {cs cs' : CS F} {pv : List Nat} (h : Mono cs cs' pv) {w : Nat → F} {online : List F}
    (hs : Sat cs' w online) : Sat cs w online := by
  intro i g hg
  have hi : i < cs.gates.length := (List.getElem?_eq_some_iff.mp hg).1
  have hg' : cs'.gates[i]? = some g := by
    obtain ⟨t, ht⟩ := h.gates
    rw [← ht, List.getElem?_append_left hi]
    exact hg
  obtain ⟨h1, h2⟩ := hs i g hg'
  obtain ⟨new, e, hn⟩ := h.cons
  rw [e, piAt_append _ _ _ _ (fun x hx => by have := hn x hx; omega)] at h1
  exact ⟨h1, fun hb => h2 (h.bool i hb)⟩

theorem piAt_getElem (cons : List Nat) (hn : cons.Nodup) (online : List F) (k c : Nat) (x : F)
    (hc : cons[k]? = some c) (hx : online[k]? = some x) : piAt cons online c = x := by
  have tail : ∀ (l : List Nat), c ∉ l → ∀ (o : List F) (acc : F),
      (l.zip o).foldl (fun acc e => if e.1 = c then e.2 else acc) acc = acc := by
    intro l hl
    induction l with
    | nil => intro o acc; simp
    | cons a l ih =>
      intro o acc
      cases o with
      | nil => simp
      | cons b o =>
        simp only [List.mem_cons, not_or] at hl
        simp only [List.zip_cons_cons, List.foldl_cons]
        rw [if_neg (fun h => hl.1 h.symm)]
        exact ih hl.2 o acc
  unfold piAt
  generalize (0 : F) = acc
  induction cons generalizing online k acc with
  | nil => simp at hc
  | cons a l ih =>
    cases online with
    | nil => simp at hx
    | cons b o =>
      simp only [List.zip_cons_cons, List.foldl_cons]
      cases k with
      | zero =>
        simp at hc hx
        subst hc hx
        rw [if_pos rfl]
        exact tail l (List.nodup_cons.mp hn).1 o _
      | succ k => exact ih (List.nodup_cons.mp hn).2 o k (by simpa using hc) (by simpa using hx) _

theorem constGate_holds (v : Nat) (c pi : F) (w : Nat → F) : Gate.Holds (constGate v c) w pi ↔ c + pi = w v := by
  simp [Gate.Holds, constGate]

/-- Public inputs are enforced: an assignment that satisfies the system agrees with the public values. -/
theorem Sat.public {cs : CS F} (hw : WF cs) {w : Nat → F} {online : List F} (hs : Sat cs w online) (k v : Nat)
    (x : F) (hv : cs.pubVars[k]? = some v) (hx : online[k]? = some x) : w v = x := by
  have hk : k < cs.pubVars.length := (List.getElem?_eq_some_iff.mp hv).1
  have hk' : k < cs.pubCons.length := hw.len ▸ hk
  have hc := List.getElem?_eq_getElem hk'
  have hg := hw.pi k _ v hc hv
  have := (hs _ _ hg).1
  rw [constGate_holds, piAt_getElem _ hw.nodup online k _ x hc hx] at this
  simpa using this.symm

/-! ### Soundness triples -/

/-- `SoundP m R`: after running `m` on any system, every satisfying assignment is related by `R` to the result
of `m` and the list of variables `m` made public. -/
def SoundP {α : Type} (m : Build F α) (R : (Nat → F) → α → List Nat → Prop) : Prop :=
  ∀ cs a cs', WF cs → m cs = some (a, cs') →
    WF cs' ∧ ∃ pv, Mono cs cs' pv ∧ ∀ w online, Sat cs' w online → R w a pv

/-- `Sound m R`: the same for builders that make no variable public. -/
def Sound {α : Type} (m : Build F α) (R : (Nat → F) → α → Prop) : Prop :=
  SoundP m (fun w a pv => pv = [] ∧ R w a)

theorem SoundP.cons {α : Type} {m : Build F α} {R R' : (Nat → F) → α → List Nat → Prop} (h : SoundP m R)
    (hR : ∀ w a pv, R w a pv → R' w a pv) : SoundP m R' := by
  intro cs a cs' hw hm
  obtain ⟨h1, pv, h2, h3⟩ := h cs a cs' hw hm
  exact ⟨h1, pv, h2, fun w o hs => hR _ _ _ (h3 w o hs)⟩

theorem Sound.cons {α : Type} {m : Build F α} {R R' : (Nat → F) → α → Prop} (h : Sound m R)
    (hR : ∀ w a, R w a → R' w a) : Sound m R' :=
  SoundP.cons h (fun w a _ hh => ⟨hh.1, hR w a hh.2⟩)

theorem SoundP.pure {α : Type} (a : α) (R : (Nat → F) → α → List Nat → Prop) (h : ∀ w, R w a []) :
    SoundP (Pure.pure a : Build F α) R := by
  intro cs b cs' hw hm
  simp only [Pure.pure, StateT.pure, Option.some.injEq, Prod.mk.injEq] at hm
  obtain ⟨rfl, rfl⟩ := hm
  exact ⟨hw, [], Mono.refl _, fun w _ _ => h w⟩

theorem SoundP.bind {α β : Type} {m : Build F α} {f : α → Build F β} {R : (Nat → F) → α → List Nat → Prop}
    {R' : (Nat → F) → β → List Nat → Prop} (h : SoundP m R)
    (hf : ∀ a, SoundP (f a) (fun w b pv => ∀ pv0, R w a pv0 → R' w b (pv0 ++ pv))) : SoundP (m >>= f) R' := by
  intro cs b cs' hw hm
  simp only [Bind.bind, StateT.bind] at hm
  obtain ⟨⟨a, cs1⟩, h1, h2⟩ := Option.bind_eq_some_iff.mp hm
  obtain ⟨w1, p1, m1, r1⟩ := h cs a cs1 hw h1
  obtain ⟨w2, p2, m2, r2⟩ := hf a cs1 b cs' w1 h2
  exact ⟨w2, p1 ++ p2, m1.trans m2, fun w o hs => r2 w o hs p1 (r1 w o (Sat.mono m2 hs))⟩

theorem Sound.pure {α : Type} (a : α) (R : (Nat → F) → α → Prop) (h : ∀ w, R w a) :
    Sound (Pure.pure a : Build F α) R := SoundP.pure a _ (fun w => ⟨rfl, h w⟩)

/-- sequencing: the continuation may use the relation established by the first part -/
theorem Sound.bind {α β : Type} {m : Build F α} {f : α → Build F β} {R : (Nat → F) → α → Prop}
    {R' : (Nat → F) → β → Prop} (h : Sound m R) (hf : ∀ a, Sound (f a) (fun w b => R w a → R' w b)) :
    Sound (m >>= f) R' := by
  refine SoundP.bind h (fun a => SoundP.cons (hf a) ?_)
  rintro w b pv ⟨rfl, h2⟩ pv0 ⟨rfl, h3⟩
  exact ⟨rfl, h2 h3⟩

theorem Sound.failure {α : Type} (R : (Nat → F) → α → Prop) : Sound (failure : Build F α) R := by
  intro cs a cs' _ hm
  exact absurd hm (by simp [Alternative.failure, StateT.failure])

theorem Sound.liftM {α : Type} (x : Option α) : Sound (liftM x : Build F α) (fun _ a => x = some a) := by
  intro cs a cs' hw hm
  cases x with
  | none => exact absurd hm (by simp [_root_.liftM, monadLift, MonadLift.monadLift, StateT.lift])
  | some y =>
    simp only [_root_.liftM, monadLift, MonadLift.monadLift, StateT.lift, Option.bind_eq_bind, Option.bind_some,
      Pure.pure, Option.some.injEq, Prod.mk.injEq] at hm
    obtain ⟨rfl, rfl⟩ := hm
    exact ⟨hw, [], Mono.refl _, fun w _ _ => ⟨rfl, rfl⟩⟩

theorem Sound.ite {α : Type} {c : Prop} [Decidable c] {m n : Build F α} {R : (Nat → F) → α → Prop}
    (h1 : c → Sound m R) (h2 : ¬c → Sound n R) : Sound (if c then m else n) R := by
  split
  · exact h1 ‹_›
  · exact h2 ‹_›

/-- loops: an invariant relating the accumulator to the processed prefix -/
theorem Sound.foldlM {α β : Type} (f : α → β → Build F α) (I : (Nat → F) → List β → α → Prop) (l : List β)
    (a0 : α) (hstep : ∀ pre a b, b ∈ l → Sound (f a b) (fun w a' => I w pre a → I w (pre ++ [b]) a')) :
    Sound (l.foldlM f a0) (fun w a => I w [] a0 → I w l a) := by
  suffices H : ∀ (l' pre : List β) (a : α), (∀ b ∈ l', b ∈ l) →
      Sound (l'.foldlM f a) (fun w r => I w pre a → I w (pre ++ l') r) by
    simpa using H l [] a0 (fun _ h => h)
  intro l'
  induction l' with
  | nil =>
    intro pre a _
    exact Sound.pure a _ (fun w h => by simpa using h)
  | cons b l' ih =>
    intro pre a hsub
    rw [List.foldlM_cons]
    refine Sound.bind (hstep pre a b (hsub b (by simp))) (fun a' => ?_)
    refine (ih (pre ++ [b]) a' (fun x hx => hsub x (by simp [hx]))).cons ?_
    intro w r h h1 h2
    have := h (h1 h2)
    simpa using this

/-! ### Primitive builders -/

theorem sound_assertVars (vs : List Nat) : Sound (assertVars vs : Build F Unit) (fun _ _ => True) := by
  intro cs a cs' hw hm
  unfold assertVars at hm
  split at hm
  · simp only [Option.some.injEq, Prod.mk.injEq] at hm
    obtain ⟨_, rfl⟩ := hm
    exact ⟨hw, [], Mono.refl _, fun _ _ _ => ⟨rfl, trivial⟩⟩
  · simp at hm

theorem assertVars_some {vs : List Nat} {cs cs' : CS F} {a : Unit} (h : assertVars vs cs = some (a, cs')) :
    cs' = cs ∧ ∀ v ∈ vs, v < cs.numVars := by
  unfold assertVars at h
  split at h
  · rename_i h1
    simp only [Option.some.injEq, Prod.mk.injEq] at h
    refine ⟨h.2.symm, ?_⟩
    simpa [List.all_eq_true] using h1
  · simp at h

/-- adding a gate all of whose wires are existing variables -/
theorem pushGate_wf {cs : CS F} (hw : WF cs) (g : Gate F) (hg : ∀ v ∈ g.wires, v < cs.numVars) :
    WF { cs with gates := cs.gates ++ [g] } where
  len := hw.len
  pi := by
    intro k c v hc hv
    have := hw.pi k c v hc hv
    simp only
    rw [List.getElem?_append_left (List.getElem?_eq_some_iff.mp this).1]
    exact this
  nodup := hw.nodup
  bool := fun b hb => by have := hw.bool b hb; simp only [List.length_append, List.length_singleton]; omega
  wit := hw.wit
  wires := by
    intro g' hg' v hv
    rcases List.mem_append.mp hg' with h | h
    · exact hw.wires g' h v hv
    · rw [List.mem_singleton.mp h] at hv
      exact hg v hv
  two := hw.two

theorem pushGate_mono (cs : CS F) (g : Gate F) : Mono cs { cs with gates := cs.gates ++ [g] } [] :=
  ⟨List.prefix_append _ _, le_refl _, fun _ h => h, by simp, ⟨[], by simp, by simp⟩, List.prefix_refl _⟩

theorem piAt_fresh {cs : CS F} (hw : WF cs) (online : List F) (i : Nat) (hi : cs.gates.length ≤ i) :
    piAt cs.pubCons online i = 0 := by
  have := piAt_append [] cs.pubCons online i (fun x hx => by have := hw.pubCons_lt x hx; omega)
  rw [List.nil_append] at this
  rw [this]; simp [piAt]

theorem pushGate_sat {cs : CS F} (hw : WF cs) (g : Gate F) {w : Nat → F} {online : List F}
    (hs : Sat { cs with gates := cs.gates ++ [g] } w online) : Gate.Holds g w 0 := by
  have := (hs cs.gates.length g (by simp)).1
  simp only at this
  rwa [piAt_fresh hw _ _ (le_refl _)] at this

/-- the typical gadget ending: check wires, add a gate -/
theorem sound_pushGate_after (vs : List Nat) (g : Gate F) (hsub : ∀ v ∈ g.wires, v ∈ vs ∨ v = 0) :
    Sound (do assertVars vs; pushGate g : Build F Unit) (fun w _ => Gate.Holds g w 0) := by
  intro cs a cs' hw hm
  simp only [Bind.bind, StateT.bind] at hm
  obtain ⟨⟨u, cs1⟩, h1, h2⟩ := Option.bind_eq_some_iff.mp hm
  obtain ⟨rfl, hlt⟩ := assertVars_some h1
  unfold pushGate at h2
  simp only [Option.some.injEq, Prod.mk.injEq] at h2
  obtain ⟨_, rfl⟩ := h2
  have h0 := hw.two
  refine ⟨pushGate_wf hw g ?_, [], pushGate_mono _ g, fun w o hs => ⟨rfl, pushGate_sat hw g hs⟩⟩
  intro v hv
  rcases hsub v hv with h | rfl
  · exact hlt v h
  · omega

theorem newVar_wf {cs : CS F} (hw : WF cs) (x : F) :
    WF { cs with numVars := cs.numVars + 1, witness := cs.witness ++ [x] } where
  len := hw.len
  pi := hw.pi
  nodup := hw.nodup
  bool := hw.bool
  wit := by simp [hw.wit]
  wires := fun g hg v hv => Nat.lt_succ_of_lt (hw.wires g hg v hv)
  two := Nat.le_succ_of_le hw.two

theorem newVar_mono (cs : CS F) (x : F) :
    Mono cs { cs with numVars := cs.numVars + 1, witness := cs.witness ++ [x] } [] :=
  ⟨List.prefix_refl _, Nat.le_succ _, fun _ h => h, by simp, ⟨[], by simp, by simp⟩, List.prefix_append _ _⟩

theorem sound_newVar (f : (Nat → F) → F) : Sound (newVar f) (fun _ _ => True) := by
  intro cs a cs' hw hm
  unfold newVar at hm
  simp only [Option.some.injEq, Prod.mk.injEq] at hm
  obtain ⟨_, rfl⟩ := hm
  exact ⟨newVar_wf hw _, [], newVar_mono _ _, fun _ _ _ => ⟨rfl, trivial⟩⟩

/-- allocate an output variable, then add a gate over checked wires and that output -/
theorem sound_newVar_gate (vs : List Nat) (f : (Nat → F) → F) (g : Nat → Gate F)
    (hsub : ∀ o, ∀ v ∈ (g o).wires, v ∈ vs ∨ v = o ∨ v = 0) :
    Sound (do assertVars vs; let o ← newVar f; pushGate (g o); Pure.pure o : Build F Nat)
      (fun w o => Gate.Holds (g o) w 0) := by
  intro cs a cs' hw hm
  simp only [Bind.bind, StateT.bind] at hm
  obtain ⟨⟨u, cs1⟩, h1, h2⟩ := Option.bind_eq_some_iff.mp hm
  obtain ⟨rfl, hlt⟩ := assertVars_some h1
  simp only [newVar, pushGate, Option.bind_some, Pure.pure, StateT.pure, Option.some.injEq, Prod.mk.injEq] at h2
  obtain ⟨rfl, rfl⟩ := h2
  have h0 := hw.two
  have hw1 := newVar_wf hw (f cs1.value)
  refine ⟨pushGate_wf hw1 _ ?_, [], (newVar_mono cs1 (f cs1.value)).trans (pushGate_mono _ _),
    fun w o hs => ⟨rfl, pushGate_sat hw1 _ hs⟩⟩
  intro v hv
  simp only
  rcases hsub _ v hv with h | rfl | rfl
  · exact Nat.lt_succ_of_lt (hlt v h)
  · omega
  · omega

/-! ### Honest witnesses -/

/-- the public inputs recorded in the stored witness -/
def CS.online (cs : CS F) : List F := cs.pubVars.map cs.value

/-- the stored witness satisfies the system -/
def HSat (cs : CS F) : Prop := Sat cs cs.value cs.online

/-- variable `v` exists and has value `x` in the stored witness -/
def Has (cs : CS F) (v : Nat) (x : F) : Prop := v < cs.numVars ∧ cs.value v = x

theorem value_mono {cs cs' : CS F} {pv : List Nat} (hw : WF cs) (h : Mono cs cs' pv) (v : Nat)
    (hv : v < cs.numVars) : cs'.value v = cs.value v := by
  unfold CS.value
  obtain ⟨t, ht⟩ := h.wit
  rw [← ht, List.getElem?_append_left (by rw [hw.wit]; exact hv)]

theorem Has.mono {cs cs' : CS F} {pv : List Nat} (hw : WF cs) (h : Mono cs cs' pv) {v : Nat} {x : F}
    (hv : Has cs v x) : Has cs' v x :=
  ⟨lt_of_lt_of_le hv.1 h.vars, by rw [value_mono hw h v hv.1]; exact hv.2⟩

/-- `Runs m cs Q`: on the state `cs`, the builder `m` does not panic, and its result, the state it leaves and the
new public variables satisfy `Q`; the stored witness satisfies all constraints. -/
def RunsP {α : Type} (m : Build F α) (cs : CS F) (Q : α → CS F → List Nat → Prop) : Prop :=
  WF cs → HSat cs → ∃ a cs' pv, m cs = some (a, cs') ∧ WF cs' ∧ HSat cs' ∧ Mono cs cs' pv ∧ Q a cs' pv

/-- the same for builders that make no variable public -/
def Runs {α : Type} (m : Build F α) (cs : CS F) (Q : α → CS F → Prop) : Prop :=
  RunsP m cs (fun a cs' pv => pv = [] ∧ Q a cs')

theorem RunsP.cons {α : Type} {m : Build F α} {cs : CS F} {Q Q' : α → CS F → List Nat → Prop} (h : RunsP m cs Q)
    (hQ : ∀ a cs' pv, WF cs → WF cs' → Mono cs cs' pv → Q a cs' pv → Q' a cs' pv) : RunsP m cs Q' := by
  intro hw hs
  obtain ⟨a, cs', pv, e, w', s', mo, q⟩ := h hw hs
  exact ⟨a, cs', pv, e, w', s', mo, hQ a cs' pv hw w' mo q⟩

theorem Runs.cons {α : Type} {m : Build F α} {cs : CS F} {Q Q' : α → CS F → Prop} (h : Runs m cs Q)
    (hQ : ∀ a cs', WF cs → WF cs' → Mono cs cs' [] → Q a cs' → Q' a cs') : Runs m cs Q' :=
  RunsP.cons h (fun a cs' pv w1 w2 mo q => ⟨q.1, hQ a cs' w1 w2 (q.1 ▸ mo) q.2⟩)

theorem RunsP.pure {α : Type} (a : α) (cs : CS F) (Q : α → CS F → List Nat → Prop) (h : Q a cs []) :
    RunsP (Pure.pure a : Build F α) cs Q := fun hw hs => ⟨a, cs, [], rfl, hw, hs, Mono.refl _, h⟩

theorem Runs.pure {α : Type} (a : α) (cs : CS F) (Q : α → CS F → Prop) (h : Q a cs) :
    Runs (Pure.pure a : Build F α) cs Q := RunsP.pure a cs _ ⟨rfl, h⟩

theorem RunsP.bind {α β : Type} {m : Build F α} {f : α → Build F β} {cs : CS F}
    {Q : α → CS F → List Nat → Prop} {Q' : β → CS F → List Nat → Prop}
    (h : RunsP m cs Q)
    (hf : ∀ a cs1 pv, WF cs → WF cs1 → Mono cs cs1 pv → Q a cs1 pv →
      RunsP (f a) cs1 (fun b cs' pv' => Q' b cs' (pv ++ pv'))) : RunsP (m >>= f) cs Q' := by
  intro hw hs
  obtain ⟨a, cs1, pv, e, w1, s1, mo, q⟩ := h hw hs
  obtain ⟨b, cs2, pv', e2, w2, s2, mo2, q2⟩ := hf a cs1 pv hw w1 mo q w1 s1
  refine ⟨b, cs2, pv ++ pv', ?_, w2, s2, mo.trans mo2, q2⟩
  simp only [Bind.bind, StateT.bind, e, Option.bind_some, e2]

theorem Runs.bind {α β : Type} {m : Build F α} {f : α → Build F β} {cs : CS F} {Q : α → CS F → Prop}
    {Q' : β → CS F → Prop} (h : Runs m cs Q)
    (hf : ∀ a cs1, WF cs → WF cs1 → Mono cs cs1 [] → Q a cs1 → Runs (f a) cs1 Q') : Runs (m >>= f) cs Q' := by
  refine RunsP.bind h (fun a cs1 pv w0 w1 mo q => ?_)
  obtain ⟨rfl, q⟩ := q
  exact RunsP.cons (hf a cs1 w0 w1 mo q) (fun b cs' pv' _ _ _ q' => ⟨by simp [q'.1], q'.2⟩)

/-- loops -/
theorem Runs.foldlM {α β : Type} (f : α → β → Build F α) (I : CS F → List β → α → Prop)
    (hmono : ∀ cs cs' pre a, WF cs → Mono cs cs' [] → I cs pre a → I cs' pre a) (l : List β) (a0 : α) (cs0 : CS F)
    (h0 : I cs0 [] a0)
    (hstep : ∀ cs pre a b post, Mono cs0 cs [] → l = pre ++ b :: post → WF cs → I cs pre a →
      Runs (f a b) cs (fun a' cs' => I cs' (pre ++ [b]) a')) :
    Runs (l.foldlM f a0) cs0 (fun a cs' => I cs' l a) := by
  suffices H : ∀ (l' pre : List β) (a : α) (cs : CS F), l = pre ++ l' → Mono cs0 cs [] → I cs pre a →
      Runs (l'.foldlM f a) cs (fun r cs' => I cs' l r) from H l [] a0 cs0 rfl (Mono.refl _) h0
  intro l'
  induction l' with
  | nil =>
    intro pre a cs e _ h
    rw [List.append_nil] at e
    subst e
    exact Runs.pure a cs _ h
  | cons b l' ih =>
    intro pre a cs e mo h
    rw [List.foldlM_cons]
    intro hw hs
    refine Runs.bind (hstep cs pre a b l' mo e hw h) (fun a' cs1 _ w1 mo1 q => ?_) hw hs
    exact ih (pre ++ [b]) a' cs1 (by simp [e]) (mo.trans mo1) q

theorem Runs.liftM {α : Type} (x : Option α) (a : α) (h : x = some a) (cs : CS F) :
    Runs (liftM x : Build F α) cs (fun b cs' => b = a ∧ cs' = cs) := by
  subst h
  exact fun hw hs => ⟨a, cs, [], rfl, hw, hs, Mono.refl _, rfl, rfl, rfl⟩

theorem runs_assertVars (vs : List Nat) (cs : CS F) (h : ∀ v ∈ vs, v < cs.numVars) :
    Runs (assertVars vs : Build F Unit) cs (fun _ cs' => cs' = cs) := by
  intro hw hs
  refine ⟨(), cs, [], ?_, hw, hs, Mono.refl _, rfl, rfl⟩
  unfold assertVars
  rw [if_pos (by simpa [List.all_eq_true] using h)]

theorem holds_congr (g : Gate F) (w w' : Nat → F) (pi : F) (h : ∀ v ∈ g.wires, w v = w' v) :
    Gate.Holds g w pi ↔ Gate.Holds g w' pi := by
  unfold Gate.Holds
  have h0 := h g.w0 (by simp [Gate.wires])
  have h1 := h g.w1 (by simp [Gate.wires])
  have h2 := h g.w2 (by simp [Gate.wires])
  have h3 := h g.w3 (by simp [Gate.wires])
  have h4 := h g.w4 (by simp [Gate.wires])
  rw [h0, h1, h2, h3, h4]

theorem HSat.newVar {cs : CS F} (hw : WF cs) (hs : HSat cs) (x : F) :
    HSat { cs with numVars := cs.numVars + 1, witness := cs.witness ++ [x] } := by
  have hv := value_mono hw (newVar_mono cs x)
  have hon : CS.online { cs with numVars := cs.numVars + 1, witness := cs.witness ++ [x] } = cs.online := by
    unfold CS.online
    refine List.map_congr_left fun v hvm => ?_
    obtain ⟨k, hk, rfl⟩ := List.mem_iff_getElem.mp hvm
    have hk' : k < cs.pubCons.length := hw.len ▸ hk
    have hg := hw.pi k _ _ (List.getElem?_eq_getElem hk') (List.getElem?_eq_getElem hk)
    exact hv _ (hw.wires _ (List.mem_of_getElem? hg) _ (by simp [Gate.wires, constGate]))
  intro i g hg
  simp only at hg
  obtain ⟨h1, h2⟩ := hs i g hg
  have hmem := List.mem_of_getElem? hg
  rw [hon]
  refine ⟨(holds_congr g _ _ _ (fun v hvm => hv v (hw.wires g hmem v hvm))).mpr h1, fun hb => ?_⟩
  obtain ⟨b1, b2, b3⟩ := h2 hb
  rw [hv _ (hw.wires g hmem _ (by simp [Gate.wires])), hv _ (hw.wires g hmem _ (by simp [Gate.wires])),
    hv _ (hw.wires g hmem _ (by simp [Gate.wires]))]
  exact ⟨b1, b2, b3⟩

theorem runs_newVar (f : (Nat → F) → F) (cs : CS F) :
    Runs (newVar f) cs (fun o cs' => Has cs' o (f cs.value)) := by
  intro hw hs
  refine ⟨_, _, [], rfl, newVar_wf hw _, HSat.newVar hw hs _, newVar_mono _ _, rfl, by simp, ?_⟩
  unfold CS.value
  simp only
  rw [← hw.wit, List.getElem?_append_right (le_refl _)]
  simp

theorem runs_pushGate (g : Gate F) (cs : CS F) (hg : ∀ v ∈ g.wires, v < cs.numVars)
    (hh : Gate.Holds g cs.value 0) : Runs (pushGate g) cs (fun _ _ => True) := by
  intro hw hs
  refine ⟨(), _, [], rfl, pushGate_wf hw g hg, ?_, pushGate_mono _ _, rfl, trivial⟩
  intro i g' hg'
  simp only at hg'
  have hv : ∀ v, CS.value { cs with gates := cs.gates ++ [g] } v = cs.value v := fun _ => rfl
  have hon : CS.online { cs with gates := cs.gates ++ [g] } = cs.online := rfl
  by_cases hi : i < cs.gates.length
  · rw [List.getElem?_append_left hi] at hg'
    exact hs i g' hg'
  · have hlen : i = cs.gates.length := by
      have := (List.getElem?_eq_some_iff.mp hg').1
      simp only [List.length_append, List.length_singleton] at this
      omega
    subst hlen
    simp only [List.getElem?_append_right (le_refl _), Nat.sub_self, List.getElem?_cons_zero,
      Option.some.injEq] at hg'
    subst hg'
    refine ⟨?_, fun hb => absurd (hw.bool _ hb) (by simp)⟩
    simp only
    rw [piAt_fresh hw _ _ (le_refl _)]
    exact hh

/-! ### Circuits do not depend on the witness -/

/-- everything but the witness -/
def CS.shape (cs : CS F) : CS F := { cs with witness := [] }

/-- `Uniform ρ m n`: started on systems that differ only in their witness, `m` and `n` both panic, or return results
related by `ρ` and again systems that differ only in their witness. -/
def Uniform {α : Type} (ρ : α → α → Prop) (m n : Build F α) : Prop :=
  ∀ cs cs2, cs.shape = cs2.shape → Option.Rel (fun x y => ρ x.1 y.1 ∧ x.2.shape = y.2.shape) (m cs) (n cs2)

theorem Uniform.pure {α : Type} {ρ : α → α → Prop} (a b : α) (h : ρ a b) :
    Uniform ρ (Pure.pure a : Build F α) (Pure.pure b) :=
  fun _ _ he => Option.Rel.some ⟨h, he⟩

theorem Uniform.bind {α β : Type} {ρ : α → α → Prop} {σ : β → β → Prop} {m n : Build F α} {f g : α → Build F β}
    (h : Uniform ρ m n) (hf : ∀ a b, ρ a b → Uniform σ (f a) (g b)) : Uniform σ (m >>= f) (n >>= g) := by
  intro cs cs2 he
  simp only [Bind.bind, StateT.bind]
  have := h cs cs2 he
  cases hm : m cs <;> cases hn : n cs2 <;> rw [hm, hn] at this
  · exact Option.Rel.none
  · cases this
  · cases this
  · cases this with
    | some h' => exact hf _ _ h'.1 _ _ h'.2

theorem Uniform.failure {α : Type} (ρ : α → α → Prop) : Uniform ρ (failure : Build F α) failure :=
  fun _ _ _ => Option.Rel.none

theorem Uniform.liftM {α : Type} (x : Option α) : Uniform (F := F) (· = ·) (liftM x) (liftM x) := by
  intro cs cs2 he
  cases x with
  | none => exact Option.Rel.none
  | some y => exact Option.Rel.some ⟨rfl, he⟩

theorem Uniform.foldlM {α β : Type} {ρ : α → α → Prop} (f g : α → β → Build F α) (l : List β)
    (h : ∀ a b x, x ∈ l → ρ a b → Uniform ρ (f a x) (g b x)) (a b : α) (hab : ρ a b) :
    Uniform ρ (l.foldlM f a) (l.foldlM g b) := by
  induction l generalizing a b with
  | nil => exact Uniform.pure a b hab
  | cons x l ih =>
    rw [List.foldlM_cons, List.foldlM_cons]
    exact Uniform.bind (h a b x (by simp) hab)
      (fun a' b' hab' => ih (fun a b x hx => h a b x (by simp [hx])) a' b' hab')

theorem uniform_assertVars (vs : List Nat) : Uniform (F := F) (· = ·) (assertVars vs) (assertVars vs) := by
  intro cs cs2 he
  have : cs.numVars = cs2.numVars := (CS.mk.inj he).2.1
  unfold assertVars
  rw [this]
  split
  · exact Option.Rel.some ⟨rfl, he⟩
  · exact Option.Rel.none

theorem uniform_pushGate (g : Gate F) : Uniform (· = ·) (pushGate g) (pushGate g) := by
  intro cs cs2 he
  refine Option.Rel.some ⟨rfl, ?_⟩
  simp only [CS.shape, CS.mk.injEq] at he ⊢
  exact ⟨by rw [he.1], he.2⟩

theorem uniform_newVar (f g : (Nat → F) → F) : Uniform (· = ·) (newVar f) (newVar g) := by
  intro cs cs2 he
  simp only [CS.shape, CS.mk.injEq] at he
  refine Option.Rel.some ⟨he.2.1, ?_⟩
  simp only [CS.shape, CS.mk.injEq]
  exact ⟨he.1, by rw [he.2.1], he.2.2⟩

end Verif.Plonk
