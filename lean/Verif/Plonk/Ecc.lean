import Mathlib.Tactic.LinearCombination
import Mathlib.Algebra.BigOperators.Group.List.Basic
import Verif.Algebra.Jubjub
import Verif.Plonk.RescueGadget

/-!
Property C50: the gadgets for points of a twisted Edwards curve `-x^2 + y^2 = 1 + d x^2 y^2`.

The native points (`JubjubPoint`) are third-party code; they are a parameter `G` with group operations and
coordinate functions.  `Edwards` lists what is assumed of them: the identity is `(0, 1)` and the coordinates of a
sum satisfy the complete addition law.  `jubjub` below is the instance for the curve of the repository, proved from
its constant (`Verif.Algebra.Edwards`, `Verif.Algebra.Jubjub`).
-/

namespace Verif.Plonk

namespace Spec

/-- a group whose elements have coordinates that follow the complete twisted Edwards addition law -/
structure Edwards (F : Type) [Field F] (d : F) (G : Type) [AddCommGroup G] where
  x : G → F
  y : G → F
  zero_x : x 0 = 0
  zero_y : y 0 = 1
  den_x : ∀ P Q, 1 + d * (x P * x Q * y P * y Q) ≠ 0
  den_y : ∀ P Q, 1 - d * (x P * x Q * y P * y Q) ≠ 0
  add_x : ∀ P Q, x (P + Q) = (x P * y Q + y P * x Q) / (1 + d * (x P * x Q * y P * y Q))
  add_y : ∀ P Q, y (P + Q) = (x P * x Q + y P * y Q) / (1 - d * (x P * x Q * y P * y Q))

end Spec

open Spec

section
variable {F : Type} [Field F] {d : F} {G : Type} [AddCommGroup G]

/-- models `PointVar`, ecc.rs:25-27 -/
structure PointVar where
  x : Nat
  y : Nat

/-- models `ExtendedPointVar`, ecc.rs:29-31; the native point depends on the witness of the circuit -/
structure ExtPoint (F G : Type) where
  var : PointVar
  pt : (Nat → F) → G

/-- one iteration of ecc.rs:86-95 -/
def baseStep (n : Nat) (s : (List G × List G × List G) × G) (i : Nat) : (List G × List G × List G) × G :=
  let point := s.2
  let point2 := point + point
  let point3 := point2 + point
  ((s.1.1 ++ [point], s.1.2.1 ++ [point2], s.1.2.2 ++ [point3]), if i < n - 1 then point2 + point2 else point)

/-- models `compute_base_multiples`, ecc.rs:82-97 -/
def computeBaseMultiples (base : G) (n : Nat) : List G × List G × List G :=
  ((List.range n).foldl (baseStep n) (([], [], []), base)).1

/-- models `new_point_variable`, ecc.rs:101-105 -/
def newPointVar (C : Edwards F d G) (p : (Nat → F) → G) : Build F PointVar := do
  let x ← newVar (fun w => C.x (p w))
  let y ← newVar (fun w => C.y (p w))
  pure ⟨x, y⟩

/-- models `prepare_pi_point_variable`, ecc.rs:108-111 -/
def preparePiPoint (p : PointVar) : Build F Unit := do
  preparePi p.x
  preparePi p.y

/-- the gate of ecc.rs:139-153 -/
def eccXGate (d : F) (p1 p2 o : PointVar) : Gate F :=
  { w0 := p1.x, w1 := p2.y, w2 := p2.x, w3 := p1.y, w4 := o.x, q1 := 0, q2 := 0, q3 := 0, q4 := 0
    qm1 := 1, qm2 := 1, qc := 0, qecc := -d, qh1 := 0, qh2 := 0, qh3 := 0, qh4 := 0, qo := 1 }

/-- the gate of ecc.rs:155-168 -/
def eccYGate (d : F) (p1 p2 o : PointVar) : Gate F :=
  { w0 := p1.x, w1 := p2.x, w2 := p1.y, w3 := p2.y, w4 := o.y, q1 := 0, q2 := 0, q3 := 0, q4 := 0
    qm1 := 1, qm2 := 1, qc := 0, qecc := d, qh1 := 0, qh2 := 0, qh3 := 0, qh4 := 0, qo := 1 }

/-- models `insert_ecc_add_gate`, ecc.rs:124-170 -/
def insertEccAddGate (d : F) (p1 p2 o : PointVar) : Build F Unit := do
  assertVars [p1.x, p1.y, p2.x, p2.y, o.x, o.y]
  pushGate (eccXGate d p1 p2 o)
  pushGate (eccYGate d p1 p2 o)

/-- models `ecc_add`, ecc.rs:173-188 -/
def eccAdd (C : Edwards F d G) (p1 p2 : ExtPoint F G) : Build F (ExtPoint F G) := do
  assertVars [p1.var.x, p1.var.y, p2.var.x, p2.var.y]
  let o ← newPointVar C (fun w => p1.pt w + p2.pt w)
  insertEccAddGate d p1.var p2.var o
  pure ⟨o, fun w => p1.pt w + p2.pt w⟩

/-- the native choice of ecc.rs:214-220 -/
def selectPoint [DecidableEq F] (g1 g2 g3 : G) (b0 b1 : F) : G :=
  if b0 = 1 then (if b1 = 1 then g3 else g1) else (if b1 = 1 then g2 else 0)

/-- the gate of ecc.rs:228-240 -/
def selXGate (x1 x2 x3 : F) (b0 b1 : Nat) (o : PointVar) : Gate F :=
  { w0 := b0, w1 := b1, w2 := 0, w3 := 0, w4 := o.x, q1 := x1, q2 := x2, q3 := 0, q4 := 0
    qm1 := x3 - (x1 + x2), qm2 := 0, qc := 0, qecc := 0, qh1 := 0, qh2 := 0, qh3 := 0, qh4 := 0, qo := 1 }

/-- the gate of ecc.rs:242-255 -/
def selYGate (y1 y2 y3 : F) (b0 b1 : Nat) (o : PointVar) : Gate F :=
  { w0 := b0, w1 := b1, w2 := 0, w3 := 0, w4 := o.y, q1 := y1 - 1, q2 := y2 - 1, q3 := 0, q4 := 0
    qm1 := y3 + 1 - (y1 + y2), qm2 := 0, qc := 1, qecc := 0, qh1 := 0, qh2 := 0, qh3 := 0, qh4 := 0, qo := 1 }

/-- models `ecc_select`, ecc.rs:202-258 -/
def eccSelect [DecidableEq F] (C : Edwards F d G) (g1 g2 g3 : G) (b0 b1 : Nat) : Build F (ExtPoint F G) := do
  assertVars [b0, b1]
  let o ← newPointVar C (fun w => selectPoint g1 g2 g3 (w b0) (w b1))
  pushGate (selXGate (C.x g1) (C.x g2) (C.x g3) b0 b1 o)
  pushGate (selYGate (C.y g1) (C.y g2) (C.y g3) b0 b1 o)
  pure ⟨o, fun w => selectPoint g1 g2 g3 (w b0) (w b1)⟩

/-- one digit: `ecc_select(bases1[i], bases2[i], bases3[i], b[2i], b[2i+1])`, with the bounds checks of the indexing -/
def selectDigit [DecidableEq F] (C : Edwards F d G) (bases : List G × List G × List G) (b : List Nat) (i : Nat) :
    Build F (ExtPoint F G) := do
  let g1 ← liftM (bases.1[i]?)
  let g2 ← liftM (bases.2.1[i]?)
  let g3 ← liftM (bases.2.2[i]?)
  let b0 ← liftM (b[2 * i]?)
  let b1 ← liftM (b[2 * i + 1]?)
  eccSelect C g1 g2 g3 b0 b1

/-- the loop body of ecc.rs:313-322 -/
def scalarMulStep [DecidableEq F] (C : Edwards F d G) (bases : List G × List G × List G) (b : List Nat)
    (p : ExtPoint F G) (i : Nat) : Build F (ExtPoint F G) := do
  let t ← selectDigit C bases b i
  eccAdd C p t

/-- models `scalar_mul_with_bases`, ecc.rs:291-324 -/
def scalarMulWithBases [DecidableEq F] (C : Edwards F d G) (bases : List G × List G × List G) (b : List Nat) :
    Build F PointVar :=
  if b.length % 2 ≠ 0 ∨ b.length = 0 ∨ b.length / 2 ≠ bases.1.length ∨ b.length / 2 ≠ bases.2.1.length ∨
      b.length / 2 ≠ bases.2.2.length then failure
  else do
    let p ← selectDigit C bases b 0
    let p ← (List.range' 1 (b.length / 2 - 1)).foldlM (scalarMulStep C bases b) p
    pure p.var

/-- models `scalar_mul`, ecc.rs:263-275 -/
def scalarMul [DecidableEq F] [ScalarRepr F] (C : Edwards F d G) (base : G) (s n : Nat) : Build F PointVar :=
  if n % 2 ≠ 0 ∨ n = 0 then failure
  else do
    let b ← rangeCheck s n
    scalarMulWithBases C (computeBaseMultiples base (n / 2)) b

end

/-! ### Base multiples -/

section
variable {G : Type} [AddCommGroup G]

theorem baseStep_fold (base : G) (n k : Nat) (hk : k ≤ n) :
    (List.range k).foldl (baseStep n) (([], [], []), base) =
      (((List.range k).map (fun i => 4 ^ i • base), (List.range k).map (fun i => (2 * 4 ^ i) • base),
        (List.range k).map (fun i => (3 * 4 ^ i) • base)), (if k < n then 4 ^ k else 4 ^ (k - 1)) • base) := by
  induction k with
  | zero => cases n <;> simp
  | succ k ih =>
    rw [List.range_succ, List.foldl_append, ih (by omega), List.foldl_cons, List.foldl_nil]
    have hk' : k < n := by omega
    simp only [hk', if_true, baseStep, List.map_append, List.map_cons, List.map_nil, Prod.mk.injEq]
    have e2 : 4 ^ k • base + 4 ^ k • base = (2 * 4 ^ k) • base := by rw [← add_nsmul]; congr 1; ring
    have e3 : (2 * 4 ^ k) • base + 4 ^ k • base = (3 * 4 ^ k) • base := by rw [← add_nsmul]; congr 1; ring
    refine ⟨⟨trivial, by rw [e2], by rw [e2, e3]⟩, ?_⟩
    by_cases h : k + 1 < n
    · rw [if_pos (by omega), if_pos h, e2, ← add_nsmul]; congr 1; ring
    · rw [if_neg (by omega), if_neg h, Nat.add_sub_cancel]

theorem computeBaseMultiples_eq (base : G) (n : Nat) : computeBaseMultiples base n =
    ((List.range n).map (fun i => 4 ^ i • base), (List.range n).map (fun i => (2 * 4 ^ i) • base),
      (List.range n).map (fun i => (3 * 4 ^ i) • base)) := by
  unfold computeBaseMultiples
  rw [baseStep_fold base n n le_rfl]

end

section
variable {F : Type} [Field F] {d : F} {G : Type} [AddCommGroup G]

/-! ### Soundness -/

/-- the assignment gives the point variable the coordinates of `P` -/
def IsPoint (C : Edwards F d G) (w : Nat → F) (v : PointVar) (P : G) : Prop := w v.x = C.x P ∧ w v.y = C.y P

/-- two gates after the checks of their variables -/
theorem sound_two_gates (vs : List Nat) (g1 g2 : Gate F) (h1 : ∀ v ∈ g1.wires, v ∈ vs ∨ v = 0)
    (h2 : ∀ v ∈ g2.wires, v ∈ vs ∨ v = 0) :
    Sound (do assertVars vs; pushGate g1; pushGate g2 : Build F Unit)
      (fun w _ => Gate.Holds g1 w 0 ∧ Gate.Holds g2 w 0) := by
  intro cs a cs' hw hm
  simp only [Bind.bind, StateT.bind] at hm
  obtain ⟨⟨u, cs1⟩, e1, e2⟩ := Option.bind_eq_some_iff.mp hm
  obtain ⟨rfl, hlt⟩ := assertVars_some e1
  have hlt' : ∀ v, v ∈ vs ∨ v = 0 → v < cs1.numVars := by
    rintro v (h | rfl)
    · exact hlt v h
    · have := hw.two; omega
  simp only [pushGate, Option.bind_some, Option.some.injEq, Prod.mk.injEq] at e2
  obtain ⟨-, rfl⟩ := e2
  have w1 := pushGate_wf hw g1 (fun v hv => hlt' v (h1 v hv))
  have w2 := pushGate_wf w1 g2 (fun v hv => hlt' v (h2 v hv))
  refine ⟨w2, [], (pushGate_mono _ _).trans (pushGate_mono _ _), fun w o hs => ⟨rfl, ?_, pushGate_sat w1 g2 hs⟩⟩
  exact pushGate_sat hw g1 (Sat.mono (pushGate_mono _ g2) hs)

/-- the two equations of the addition gate -/
theorem sound_insertEccAddGate (p1 p2 o : PointVar) :
    Sound (insertEccAddGate d p1 p2 o) (fun w _ =>
      (1 + d * (w p1.x * w p2.x * w p1.y * w p2.y)) * w o.x = w p1.x * w p2.y + w p1.y * w p2.x ∧
      (1 - d * (w p1.x * w p2.x * w p1.y * w p2.y)) * w o.y = w p1.x * w p2.x + w p1.y * w p2.y) := by
  refine (sound_two_gates [p1.x, p1.y, p2.x, p2.y, o.x, o.y] (eccXGate d p1 p2 o) (eccYGate d p1 p2 o)
    (by intro v; simp [eccXGate, Gate.wires]; tauto) (by intro v; simp [eccYGate, Gate.wires]; tauto)).cons ?_
  rintro w _ ⟨hx, hy⟩
  simp only [Gate.Holds, eccXGate, eccYGate] at hx hy
  exact ⟨by linear_combination -hx, by linear_combination -hy⟩

theorem sound_newPointVar (C : Edwards F d G) (p : (Nat → F) → G) :
    Sound (newPointVar C p) (fun _ _ => True) :=
  Sound.bind (sound_newVar _) (fun _ => Sound.bind (sound_newVar _) (fun _ => Sound.pure _ _ (fun _ _ _ => trivial)))

/-- the addition law, solved for the sum: the equations of the gate determine the output -/
theorem edwards_unique (C : Edwards F d G) (P Q : G) (x y : F)
    (hx : (1 + d * (C.x P * C.x Q * C.y P * C.y Q)) * x = C.x P * C.y Q + C.y P * C.x Q)
    (hy : (1 - d * (C.x P * C.x Q * C.y P * C.y Q)) * y = C.x P * C.x Q + C.y P * C.y Q) :
    x = C.x (P + Q) ∧ y = C.y (P + Q) := by
  rw [C.add_x, C.add_y, eq_div_iff (C.den_x P Q), eq_div_iff (C.den_y P Q)]
  exact ⟨by rw [← hx]; ring, by rw [← hy]; ring⟩

theorem sound_eccAdd (C : Edwards F d G) (p1 p2 : ExtPoint F G) :
    Sound (eccAdd C p1 p2) (fun w o => ∀ P Q, IsPoint C w p1.var P → IsPoint C w p2.var Q →
      IsPoint C w o.var (P + Q)) := by
  unfold eccAdd
  refine Sound.bind (sound_assertVars _) (fun _ => Sound.bind (sound_newPointVar C _) (fun o => ?_))
  refine Sound.bind (sound_insertEccAddGate p1.var p2.var o) (fun _ => Sound.pure _ _ ?_)
  rintro w ⟨hx, hy⟩ _ _ P Q ⟨px, py⟩ ⟨qx, qy⟩
  rw [px, py, qx, qy] at hx hy
  exact edwards_unique C P Q _ _ hx hy

/-- the digit `b0 + 2 b1` of two bits -/
def digit (b0 b1 : Bool) : Nat := (if b0 then 1 else 0) + 2 * (if b1 then 1 else 0)

/-- the base selected by two bits -/
def pick (g1 g2 g3 : G) : Bool → Bool → G
  | false, false => 0
  | true, false => g1
  | false, true => g2
  | true, true => g3

theorem sound_eccSelect [DecidableEq F] (C : Edwards F d G) (g1 g2 g3 : G) (b0 b1 : Nat) :
    Sound (eccSelect C g1 g2 g3 b0 b1) (fun w o => ∀ c0 c1 : Bool, w b0 = (if c0 then 1 else 0) →
      w b1 = (if c1 then 1 else 0) → IsPoint C w o.var (pick g1 g2 g3 c0 c1)) := by
  intro cs a cs' hw hm
  unfold eccSelect newPointVar at hm
  simp only [Bind.bind, StateT.bind] at hm
  obtain ⟨⟨u, cs1⟩, e1, e2⟩ := Option.bind_eq_some_iff.mp hm
  obtain ⟨rfl, hlt⟩ := assertVars_some e1
  simp only [newVar, pushGate, Option.bind_some, Pure.pure, StateT.pure, Option.some.injEq, Prod.mk.injEq] at e2
  obtain ⟨rfl, rfl⟩ := e2
  have hb0 := hlt b0 (by simp)
  have hb1 := hlt b1 (by simp)
  have h2 := hw.two
  refine ⟨pushGate_wf (pushGate_wf (newVar_wf (newVar_wf hw _) _) _ ?_) _ ?_, [],
    ((newVar_mono _ _).trans (newVar_mono _ _)).trans ((pushGate_mono _ _).trans (pushGate_mono _ _)), ?_⟩
  · intro v hv; simp [selXGate, Gate.wires] at hv ⊢; omega
  · intro v hv; simp [selYGate, Gate.wires] at hv ⊢; omega
  · intro w o hs
    refine ⟨rfl, ?_⟩
    have hy := pushGate_sat (pushGate_wf (newVar_wf (newVar_wf hw _) _) _
      (by intro v hv; simp [selXGate, Gate.wires] at hv ⊢; omega)) _ hs
    have hx := pushGate_sat (newVar_wf (newVar_wf hw _) _) _ (Sat.mono (pushGate_mono _ _) hs)
    intro c0 c1 h0 h1
    simp only [Gate.Holds, selXGate, selYGate, h0, h1] at hx hy
    refine ⟨?_, ?_⟩
    · cases c0 <;> cases c1 <;> simp [pick, C.zero_x] at hx ⊢ <;> linear_combination -hx
    · cases c0 <;> cases c1 <;> simp [pick, C.zero_y] at hy ⊢ <;> linear_combination -hy


theorem sound_selectDigit [DecidableEq F] (C : Edwards F d G) (bases : List G × List G × List G) (b : List Nat)
    (i : Nat) :
    Sound (selectDigit C bases b i) (fun w o => ∃ g1 g2 g3, bases.1[i]? = some g1 ∧ bases.2.1[i]? = some g2 ∧
      bases.2.2[i]? = some g3 ∧ ∀ c : Nat → Bool,
        (∀ j v, b[j]? = some v → w v = if c j then 1 else 0) →
        IsPoint C w o.var (pick g1 g2 g3 (c (2 * i)) (c (2 * i + 1)))) := by
  unfold selectDigit
  refine Sound.bind (Sound.liftM _) (fun g1 => Sound.bind (Sound.liftM _) (fun g2 => Sound.bind (Sound.liftM _)
    (fun g3 => Sound.bind (Sound.liftM _) (fun b0 => Sound.bind (Sound.liftM _) (fun b1 =>
      (sound_eccSelect C g1 g2 g3 b0 b1).cons ?_)))))
  intro w o h hb1 hb0 h3 h2 h1
  exact ⟨g1, g2, g3, h1, h2, h3, fun c hc => h _ _ (hc _ _ hb0) (hc _ _ hb1)⟩

/-- the point selected for digit `i` -/
def digitPoint (bases : List G × List G × List G) (c : Nat → Bool) (i : Nat) : G :=
  match bases.1[i]?, bases.2.1[i]?, bases.2.2[i]? with
  | some g1, some g2, some g3 => pick g1 g2 g3 (c (2 * i)) (c (2 * i + 1))
  | _, _, _ => 0

theorem sound_scalarMulWithBases [DecidableEq F] (C : Edwards F d G) (bases : List G × List G × List G)
    (b : List Nat) :
    Sound (scalarMulWithBases C bases b) (fun w o => ∀ c : Nat → Bool,
      (∀ j v, b[j]? = some v → w v = if c j then 1 else 0) →
      IsPoint C w o ((List.range (b.length / 2)).map (digitPoint bases c)).sum) := by
  unfold scalarMulWithBases
  refine Sound.ite (fun _ => Sound.failure _) (fun hlen => ?_)
  push Not at hlen
  have hk : 1 + (b.length / 2 - 1) = b.length / 2 := by omega
  refine Sound.bind (sound_selectDigit C bases b 0) (fun p => ?_)
  refine Sound.bind (Sound.foldlM (scalarMulStep C bases b) (fun w pre a => ∀ c : Nat → Bool,
    (∀ j v, b[j]? = some v → w v = if c j then 1 else 0) →
    IsPoint C w a.var (digitPoint bases c 0 + (pre.map (digitPoint bases c)).sum)) _ p ?_) (fun p' => ?_)
  · intro pre a i _
    unfold scalarMulStep
    refine Sound.bind (sound_selectDigit C bases b i) (fun t => (sound_eccAdd C a t).cons ?_)
    rintro w o hadd ⟨g1, g2, g3, h1, h2, h3, hsel⟩ hI c hc
    have := hadd _ _ (hI c hc) (hsel c hc)
    rw [List.map_append, List.sum_append, ← add_assoc]
    simpa [digitPoint, h1, h2, h3] using this
  · refine Sound.pure _ _ ?_
    rintro w hfold ⟨g1, g2, g3, h1, h2, h3, hsel⟩ c hc
    have := hfold (fun c hc => by simpa [digitPoint, h1, h2, h3] using hsel c hc) c hc
    rw [show List.range (b.length / 2) = 0 :: List.range' 1 (b.length / 2 - 1) by
      rw [List.range_eq_range', ← hk, Nat.add_comm 1, List.range'_succ]; simp, List.map_cons, List.sum_cons]
    exact this

theorem pick_multiples (base : G) (k : Nat) (c0 c1 : Bool) :
    pick (k • base) ((2 * k) • base) ((3 * k) • base) c0 c1 = (digit c0 c1 * k) • base := by
  cases c0 <;> cases c1 <;> simp [pick, digit]

/-- the value of the base-four digits of a bit string -/
theorem digits_sum (N k : Nat) :
    ((List.range k).map (fun i => digit (N.testBit (2 * i)) (N.testBit (2 * i + 1)) * 4 ^ i)).sum = N % 4 ^ k := by
  induction k with
  | zero => simp [Nat.mod_one]
  | succ k ih =>
    rw [List.range_succ, List.map_append, List.sum_append, ih]
    have hd : digit (N.testBit (2 * k)) (N.testBit (2 * k + 1)) = N / 4 ^ k % 4 := by
      have h4 : (4 : Nat) ^ k = 2 ^ (2 * k) := by rw [pow_mul]; norm_num
      unfold digit
      rw [h4]
      simp only [Nat.testBit_eq_decide_div_mod_eq, decide_eq_true_eq, pow_succ, ← Nat.div_div_eq_div_mul]
      generalize N / 2 ^ (2 * k) = M
      have := Nat.mod_two_eq_zero_or_one M
      have := Nat.mod_two_eq_zero_or_one (M / 2)
      split <;> split <;> omega
    rw [List.map_cons, List.map_nil, List.sum_singleton, hd, pow_succ, Nat.mod_mul]
    ring

theorem digitPoint_multiples (base : G) (n i : Nat) (c : Nat → Bool) (hi : i < n) :
    digitPoint (computeBaseMultiples base n) c i = (digit (c (2 * i)) (c (2 * i + 1)) * 4 ^ i) • base := by
  unfold digitPoint
  rw [computeBaseMultiples_eq]
  simp only [List.getElem?_map, List.getElem?_range hi, Option.map_some]
  exact pick_multiples base (4 ^ i) _ _

theorem digitPoint_sum (base : G) (n N : Nat) :
    ((List.range n).map (digitPoint (computeBaseMultiples base n) N.testBit)).sum = (N % 4 ^ n) • base := by
  rw [← digits_sum N n]
  have hs : ∀ l : List Nat, (l.sum) • base = (l.map (fun k => k • base)).sum := by
    intro l
    induction l with
    | nil => simp
    | cons a l ih => rw [List.sum_cons, List.map_cons, List.sum_cons, add_nsmul, ih]
  rw [hs, List.map_map]
  congr 1
  refine List.map_congr_left fun i hi => ?_
  rw [digitPoint_multiples base n i _ (List.mem_range.mp hi)]
  rfl

/-! ### Completeness -/

/-- the stored witness gives the point variable the coordinates of `P` -/
def HasPoint (C : Edwards F d G) (cs : CS F) (v : PointVar) (P : G) : Prop := Has cs v.x (C.x P) ∧ Has cs v.y (C.y P)

/-- the same, and the native point is `P`, now and in every later state -/
def HasExt (C : Edwards F d G) (cs : CS F) (p : ExtPoint F G) (P : G) : Prop :=
  HasPoint C cs p.var P ∧ ∀ cs' pv, Mono cs cs' pv → p.pt cs'.value = P

theorem HasPoint.mono {C : Edwards F d G} {cs cs' : CS F} {pv : List Nat} (hw : WF cs) (h : Mono cs cs' pv)
    {v : PointVar} {P : G} (hv : HasPoint C cs v P) : HasPoint C cs' v P :=
  ⟨hv.1.mono hw h, hv.2.mono hw h⟩

theorem HasExt.mono {C : Edwards F d G} {cs cs' : CS F} {pv : List Nat} (hw : WF cs) (h : Mono cs cs' pv)
    {p : ExtPoint F G} {P : G} (hv : HasExt C cs p P) : HasExt C cs' p P :=
  ⟨hv.1.mono hw h, fun _ _ h2 => hv.2 _ _ (h.trans h2)⟩

theorem runs_newPointVar (C : Edwards F d G) (p : (Nat → F) → G) (P : G) (cs : CS F)
    (hp : ∀ cs' pv, Mono cs cs' pv → p cs'.value = P) :
    Runs (newPointVar C p) cs (fun o cs' => HasPoint C cs' o P) := by
  unfold newPointVar
  refine Runs.bind (runs_newVar _ _) ?_
  intro x cs1 _ w1 m1 hx
  refine Runs.bind (runs_newVar _ _) ?_
  intro y cs2 _ _ m2 hy
  rw [hp cs [] (Mono.refl _)] at hx
  rw [hp cs1 [] m1] at hy
  exact Runs.pure _ _ _ ⟨hx.mono w1 m2, hy⟩

theorem runs_eccAdd (C : Edwards F d G) (p1 p2 : ExtPoint F G) (P Q : G) (cs : CS F) (h1 : HasExt C cs p1 P)
    (h2 : HasExt C cs p2 Q) : Runs (eccAdd C p1 p2) cs (fun o cs' => HasExt C cs' o (P + Q)) := by
  unfold eccAdd
  refine Runs.bind (runs_assertVars _ cs (by simp [h1.1.1.1, h1.1.2.1, h2.1.1.1, h2.1.2.1])) ?_
  rintro _ cs1 w0 _ _ rfl
  have hsum : ∀ cs' pv, Mono cs1 cs' pv → p1.pt cs'.value + p2.pt cs'.value = P + Q :=
    fun cs' pv m => by rw [h1.2 cs' pv m, h2.2 cs' pv m]
  refine Runs.bind (runs_newPointVar C _ (P + Q) cs1 hsum) ?_
  intro o cs2 _ w2 m2 ho
  have k1 := h1.mono w0 m2
  have k2 := h2.mono w0 m2
  have e1 := C.add_x P Q
  have e2 := C.add_y P Q
  rw [eq_div_iff (C.den_x P Q)] at e1
  rw [eq_div_iff (C.den_y P Q)] at e2
  refine Runs.bind (Q := fun _ _ => True) ?_ ?_
  · unfold insertEccAddGate
    refine Runs.bind (runs_assertVars _ cs2 (by
      simp [k1.1.1.1, k1.1.2.1, k2.1.1.1, k2.1.2.1, ho.1.1, ho.2.1])) ?_
    rintro _ cs3 w3 _ _ rfl
    refine Runs.bind (runs_pushGate _ _ (by
      simp [eccXGate, Gate.wires, k1.1.1.1, k1.1.2.1, k2.1.1.1, k2.1.2.1, ho.1.1]) ?_) ?_
    · simp only [Gate.Holds, eccXGate, k1.1.1.2, k1.1.2.2, k2.1.1.2, k2.1.2.2, ho.1.2]
      linear_combination -e1
    · intro _ cs4 _ _ m4 _
      have j1 := k1.mono w3 m4
      have j2 := k2.mono w3 m4
      have jo := ho.mono w3 m4
      refine runs_pushGate _ _ (by
        simp [eccYGate, Gate.wires, j1.1.1.1, j1.1.2.1, j2.1.1.1, j2.1.2.1, jo.2.1]) ?_
      simp only [Gate.Holds, eccYGate, j1.1.1.2, j1.1.2.2, j2.1.1.2, j2.1.2.2, jo.2.2]
      linear_combination -e2
  · intro _ cs3 _ _ m3 _
    refine Runs.pure _ _ _ ⟨ho.mono w2 m3, fun cs' pv m => hsum cs' _ ((m2.trans m3).trans m)⟩

theorem runs_eccSelect [DecidableEq F] (C : Edwards F d G) (g1 g2 g3 : G) (b0 b1 : Nat) (c0 c1 : Bool) (cs : CS F)
    (h0 : Has cs b0 (if c0 then 1 else 0)) (h1 : Has cs b1 (if c1 then 1 else 0)) :
    Runs (eccSelect C g1 g2 g3 b0 b1) cs (fun o cs' => HasExt C cs' o (pick g1 g2 g3 c0 c1)) := by
  unfold eccSelect
  refine Runs.bind (runs_assertVars _ cs (by simp [h0.1, h1.1])) ?_
  rintro _ cs1 w0 _ _ rfl
  have hsel : ∀ cs' pv, Mono cs1 cs' pv →
      selectPoint g1 g2 g3 (cs'.value b0) (cs'.value b1) = pick g1 g2 g3 c0 c1 := by
    intro cs' pv m
    rw [(h0.mono w0 m).2, (h1.mono w0 m).2]
    cases c0 <;> cases c1 <;> simp [selectPoint, pick]
  refine Runs.bind (runs_newPointVar C _ _ cs1 hsel) ?_
  intro o cs2 _ w2 m2 ho
  have k0 := h0.mono w0 m2
  have k1 := h1.mono w0 m2
  have htwo := w2.two
  refine Runs.bind (runs_pushGate _ _ (by
    simp [selXGate, Gate.wires, k0.1, k1.1, ho.1.1]; omega) ?_) ?_
  · simp only [Gate.Holds, selXGate, k0.2, k1.2, ho.1.2]
    cases c0 <;> cases c1 <;> simp [pick, C.zero_x]
  intro _ cs3 _ w3 m3 _
  have l0 := k0.mono w2 m3
  have l1 := k1.mono w2 m3
  have lo := ho.mono w2 m3
  refine Runs.bind (runs_pushGate _ _ (by
    simp [selYGate, Gate.wires, l0.1, l1.1, lo.2.1]; have := w3.two; omega) ?_) ?_
  · simp only [Gate.Holds, selYGate, l0.2, l1.2, lo.2.2]
    cases c0 <;> cases c1 <;> simp [pick, C.zero_y]
    ring
  intro _ cs4 _ _ m4 _
  exact Runs.pure _ _ _ ⟨lo.mono w3 m4, fun cs' pv m => hsel cs' _ (((m2.trans m3).trans m4).trans m)⟩

theorem runs_selectDigit [DecidableEq F] (C : Edwards F d G) (bases : List G × List G × List G) (b : List Nat)
    (i : Nat) (c : Nat → Bool) (cs : CS F) (hb1 : i < bases.1.length) (hb2 : i < bases.2.1.length)
    (hb3 : i < bases.2.2.length) (hi : 2 * i + 1 < b.length)
    (hc : ∀ j v, b[j]? = some v → Has cs v (if c j then 1 else 0)) :
    Runs (selectDigit C bases b i) cs (fun o cs' => HasExt C cs' o (digitPoint bases c i)) := by
  unfold selectDigit
  refine Runs.bind (Runs.liftM _ _ (List.getElem?_eq_getElem hb1) cs) ?_
  rintro _ _ _ _ _ ⟨rfl, rfl⟩
  refine Runs.bind (Runs.liftM _ _ (List.getElem?_eq_getElem hb2) _) ?_
  rintro _ _ _ _ _ ⟨rfl, rfl⟩
  refine Runs.bind (Runs.liftM _ _ (List.getElem?_eq_getElem hb3) _) ?_
  rintro _ _ _ _ _ ⟨rfl, rfl⟩
  refine Runs.bind (Runs.liftM _ _ (List.getElem?_eq_getElem (by omega : 2 * i < b.length)) _) ?_
  rintro _ _ _ _ _ ⟨rfl, rfl⟩
  refine Runs.bind (Runs.liftM _ _ (List.getElem?_eq_getElem hi) _) ?_
  rintro _ cs' _ _ _ ⟨rfl, rfl⟩
  have := runs_eccSelect C bases.1[i] bases.2.1[i] bases.2.2[i] b[2 * i] b[2 * i + 1] (c (2 * i)) (c (2 * i + 1)) cs'
    (hc _ _ (List.getElem?_eq_getElem _)) (hc _ _ (List.getElem?_eq_getElem _))
  simpa [digitPoint, List.getElem?_eq_getElem hb1, List.getElem?_eq_getElem hb2, List.getElem?_eq_getElem hb3] using this

theorem runs_scalarMulWithBases [DecidableEq F] (C : Edwards F d G) (bases : List G × List G × List G) (b : List Nat)
    (c : Nat → Bool) (cs : CS F) (heven : b.length % 2 = 0) (hpos : b.length ≠ 0)
    (hl1 : bases.1.length = b.length / 2) (hl2 : bases.2.1.length = b.length / 2)
    (hl3 : bases.2.2.length = b.length / 2) (hc : ∀ j v, b[j]? = some v → Has cs v (if c j then 1 else 0)) :
    Runs (scalarMulWithBases C bases b) cs (fun o cs' =>
      HasPoint C cs' o ((List.range (b.length / 2)).map (digitPoint bases c)).sum) := by
  unfold scalarMulWithBases
  rw [if_neg (by push Not; omega)]
  have hk : 1 + (b.length / 2 - 1) = b.length / 2 := by omega
  refine Runs.bind (runs_selectDigit C bases b 0 c cs (by omega) (by omega) (by omega) (by omega) hc) ?_
  intro p cs1 w0 w1 m1 hp
  refine Runs.bind (Runs.foldlM (scalarMulStep C bases b) (fun cs' pre a =>
    HasExt C cs' a (digitPoint bases c 0 + (pre.map (digitPoint bases c)).sum))
    (fun cs cs' pre a hw hm h => h.mono hw hm) _ p cs1 (by simpa using hp) ?_) ?_
  · intro cs2 pre a i post m2 hl w2 hI
    have hi : i ∈ List.range' 1 (b.length / 2 - 1) := by rw [hl]; simp
    rw [List.mem_range'_1] at hi
    unfold scalarMulStep
    refine Runs.bind (runs_selectDigit C bases b i c cs2 (by omega) (by omega) (by omega) (by omega)
      (fun j v hv => ((hc j v hv).mono w0 m1).mono w1 m2)) ?_
    intro t cs3 _ w3 m3 ht
    refine (runs_eccAdd C a t _ _ cs3 (hI.mono w2 m3) ht).cons ?_
    intro o cs4 _ _ _ ho
    rw [List.map_append, List.sum_append, ← add_assoc]
    simpa using ho
  · intro p' cs2 _ _ _ hp'
    refine Runs.pure _ _ _ ?_
    rw [show List.range (b.length / 2) = 0 :: List.range' 1 (b.length / 2 - 1) by
      rw [List.range_eq_range', ← hk, Nat.add_comm 1, List.range'_succ]; simp, List.map_cons, List.sum_cons]
    exact hp'.1

/-! ### Shape -/

theorem uniform_newPointVar (C : Edwards F d G) (p q : (Nat → F) → G) :
    Uniform (· = ·) (newPointVar C p) (newPointVar C q) := by
  unfold newPointVar
  refine Uniform.bind (uniform_newVar _ _) (fun x _ e => ?_); subst e
  refine Uniform.bind (uniform_newVar _ _) (fun y _ e => ?_); subst e
  exact Uniform.pure _ _ rfl

theorem uniform_eccAdd (C : Edwards F d G) (p1 p2 : ExtPoint F G) :
    Uniform (· = ·) (eccAdd C p1 p2) (eccAdd C p1 p2) := by
  unfold eccAdd insertEccAddGate
  refine Uniform.bind (uniform_assertVars _) (fun _ _ _ => ?_)
  refine Uniform.bind (uniform_newPointVar C _ _) (fun o _ e => ?_); subst e
  refine Uniform.bind (Uniform.bind (uniform_assertVars _) (fun _ _ _ => Uniform.bind (uniform_pushGate _)
    (fun _ _ _ => uniform_pushGate _))) (fun _ _ _ => Uniform.pure _ _ rfl)

theorem uniform_selectDigit [DecidableEq F] (C : Edwards F d G) (bases : List G × List G × List G) (b : List Nat)
    (i : Nat) : Uniform (· = ·) (selectDigit C bases b i) (selectDigit C bases b i) := by
  unfold selectDigit
  refine Uniform.bind (Uniform.liftM _) (fun _ _ e => ?_); subst e
  refine Uniform.bind (Uniform.liftM _) (fun _ _ e => ?_); subst e
  refine Uniform.bind (Uniform.liftM _) (fun _ _ e => ?_); subst e
  refine Uniform.bind (Uniform.liftM _) (fun _ _ e => ?_); subst e
  refine Uniform.bind (Uniform.liftM _) (fun _ _ e => ?_); subst e
  unfold eccSelect
  refine Uniform.bind (uniform_assertVars _) (fun _ _ _ => ?_)
  refine Uniform.bind (uniform_newPointVar C _ _) (fun o _ e => ?_); subst e
  exact Uniform.bind (uniform_pushGate _) (fun _ _ _ => Uniform.bind (uniform_pushGate _) (fun _ _ _ =>
    Uniform.pure _ _ rfl))

theorem uniform_scalarMulWithBases [DecidableEq F] (C : Edwards F d G) (bases : List G × List G × List G)
    (b : List Nat) : Uniform (· = ·) (scalarMulWithBases C bases b) (scalarMulWithBases C bases b) := by
  unfold scalarMulWithBases
  refine Uniform.ite (fun _ => Uniform.failure _) (fun _ => ?_)
  refine Uniform.bind (uniform_selectDigit C bases b 0) (fun p _ e => ?_); subst e
  refine Uniform.bind (Uniform.foldlM (ρ := (· = ·)) _ _ _ ?_ _ _ rfl) (fun p _ e => ?_)
  · intro a a' i _ e
    subst e
    unfold scalarMulStep
    refine Uniform.bind (uniform_selectDigit C bases b i) (fun t _ e => ?_); subst e
    exact uniform_eccAdd C _ _
  · subst e
    exact Uniform.pure _ _ rfl

/-! ### Property C50 -/

/-- C50: a point made public: its two coordinates, in this order, are the next two public inputs of every satisfying assignment. -/
theorem C50_public_point (p : PointVar) (cs cs' : CS F) (hw : WF cs) (h : preparePiPoint p cs = some ((), cs')) :
    cs'.pubVars = cs.pubVars ++ [p.x, p.y] ∧ ∀ w online, Sat cs' w online → ∀ x y,
      online[cs.pubVars.length]? = some x → online[cs.pubVars.length + 1]? = some y → w p.x = x ∧ w p.y = y := by
  have hs : SoundP (preparePiPoint p : Build F Unit) (fun _ _ pv => pv = [p.x, p.y]) := by
    refine SoundP.bind (soundP_preparePi _) (fun _ => (soundP_preparePi _).cons ?_)
    rintro w a pv rfl pv0 rfl
    rfl
  obtain ⟨hw', -⟩ := hs cs () cs' hw h
  have hpub : cs'.pubVars = cs.pubVars ++ [p.x, p.y] := by
    unfold preparePiPoint at h
    simp only [Bind.bind, StateT.bind] at h
    obtain ⟨⟨_, cs1⟩, h1, h2⟩ := Option.bind_eq_some_iff.mp h
    obtain ⟨-, rfl⟩ := preparePi_some h1
    obtain ⟨-, rfl⟩ := preparePi_some h2
    simp
  refine ⟨hpub, fun w online hsat x y hx hy => ⟨?_, ?_⟩⟩
  · exact Sat.public hw' hsat cs.pubVars.length p.x x (by rw [hpub]; simp) hx
  · exact Sat.public hw' hsat (cs.pubVars.length + 1) p.y y (by rw [hpub]; simp) hy

/-- C50: in every assignment that satisfies a system containing an `ecc_add`, the output has the coordinates of the
sum of the points that the inputs stand for. -/
theorem C50_ecc_add_sound (C : Edwards F d G) (p1 p2 : ExtPoint F G) :
    Sound (eccAdd C p1 p2) (fun w o => ∀ P Q : G, w p1.var.x = C.x P → w p1.var.y = C.y P → w p2.var.x = C.x Q →
      w p2.var.y = C.y Q → w o.var.x = C.x (P + Q) ∧ w o.var.y = C.y (P + Q)) :=
  (sound_eccAdd C p1 p2).cons (fun w o h P Q a b c e => h P Q ⟨a, b⟩ ⟨c, e⟩)

/-- C50: the same without reference to the group: whatever the inputs are, the output satisfies the addition law
wherever its denominators do not vanish. -/
theorem C50_ecc_add_coordinates (C : Edwards F d G) (p1 p2 : ExtPoint F G) :
    Sound (eccAdd C p1 p2) (fun w o =>
      let t := d * (w p1.var.x * w p2.var.x * w p1.var.y * w p2.var.y)
      (1 + t ≠ 0 → w o.var.x = (w p1.var.x * w p2.var.y + w p1.var.y * w p2.var.x) / (1 + t)) ∧
      (1 - t ≠ 0 → w o.var.y = (w p1.var.x * w p2.var.x + w p1.var.y * w p2.var.y) / (1 - t))) := by
  unfold eccAdd
  refine Sound.bind (sound_assertVars _) (fun _ => Sound.bind (sound_newPointVar C _) (fun o => ?_))
  refine Sound.bind (sound_insertEccAddGate p1.var p2.var o) (fun _ => Sound.pure _ _ ?_)
  rintro w ⟨hx, hy⟩ _ _
  refine ⟨fun h => ?_, fun h => ?_⟩
  · rw [eq_div_iff h, ← hx]; ring
  · rw [eq_div_iff h, ← hy]; ring

/-- C50: two boolean variables select among the identity and the three given points. -/
theorem C50_ecc_select_sound [DecidableEq F] (C : Edwards F d G) (base : G) (k b0 b1 : Nat) :
    Sound (eccSelect C (k • base) ((2 * k) • base) ((3 * k) • base) b0 b1) (fun w o => ∀ c0 c1 : Nat,
      c0 < 2 → c1 < 2 → w b0 = c0 → w b1 = c1 →
      w o.var.x = C.x (((c0 + 2 * c1) * k) • base) ∧ w o.var.y = C.y (((c0 + 2 * c1) * k) • base)) := by
  refine (sound_eccSelect C _ _ _ b0 b1).cons ?_
  intro w o h c0 c1 h0 h1 e0 e1
  have := h (decide (c0 = 1)) (decide (c1 = 1)) (by rw [e0]; interval_cases c0 <;> simp)
    (by rw [e1]; interval_cases c1 <;> simp)
  rw [pick_multiples] at this
  unfold IsPoint at this
  interval_cases c0 <;> interval_cases c1 <;> simpa [digit] using this

/-- C50: fixed-base multiplication.  In every satisfying assignment the scalar variable is the number given by its
`n` bits and the output is that multiple of the base. -/
theorem C50_scalar_mul_sound [DecidableEq F] [ScalarRepr F] (C : Edwards F d G) (base : G) (s n : Nat) :
    Sound (scalarMul C base s n) (fun w o => ∃ N : Nat, N < 2 ^ n ∧ w s = (N : F) ∧
      w o.x = C.x (N • base) ∧ w o.y = C.y (N • base)) := by
  unfold scalarMul
  refine Sound.ite (fun _ => Sound.failure _) (fun hn => ?_)
  push Not at hn
  refine Sound.bind (C46_range_check_sound s n) (fun b => (sound_scalarMulWithBases C _ b).cons ?_)
  rintro w o h ⟨hl, N, hN, hs, hb⟩
  have := h N.testBit (fun j v hv => by rw [hb j v hv]; rfl)
  rw [hl, digitPoint_sum, Nat.mod_eq_of_lt] at this
  · exact ⟨N, hN, hs, this⟩
  · have h4 : (4 : Nat) ^ (n / 2) = 2 ^ n := by
      rw [show (4 : Nat) = 2 ^ 2 by norm_num, ← pow_mul]; congr 1; omega
    rw [h4]; exact hN

/-- C50: the honest witness of the multiplication satisfies the system and gives the multiple, for every scalar that
fits into the declared number of bits. -/
theorem C50_scalar_mul_complete [DecidableEq F] [ScalarRepr F] (C : Edwards F d G) (base : G) (s n : Nat) (x : F)
    (cs : CS F) (hn : n % 2 = 0) (hpos : n ≠ 0) (hz : Has cs 0 0) (hv : Has cs s x) (hx : ScalarRepr.val x < 2 ^ n) :
    Runs (scalarMul C base s n) cs (fun o cs' => Has cs' o.x (C.x (ScalarRepr.val x • base)) ∧
      Has cs' o.y (C.y (ScalarRepr.val x • base))) := by
  unfold scalarMul
  rw [if_neg (by omega)]
  refine Runs.bind (C46_range_check_complete s n x cs (by omega) hz hv hx) ?_
  rintro b cs1 _ w1 m1 ⟨hl, hb⟩
  have hlen : ∀ k, (computeBaseMultiples base k).1.length = k ∧ (computeBaseMultiples base k).2.1.length = k ∧
      (computeBaseMultiples base k).2.2.length = k := by intro k; rw [computeBaseMultiples_eq]; simp
  refine (runs_scalarMulWithBases C _ b (ScalarRepr.val x).testBit cs1 (by omega) (by omega) ?_ ?_ ?_ ?_).cons ?_
  · rw [hl]; exact (hlen _).1
  · rw [hl]; exact (hlen _).2.1
  · rw [hl]; exact (hlen _).2.2
  · intro j v hv
    have hj := (List.getElem?_eq_some_iff.mp hv).1
    obtain ⟨v', e, h⟩ := hb j (by omega)
    rw [hv] at e
    cases e
    exact h
  · intro o cs2 _ _ _ ho
    rw [hl, digitPoint_sum, Nat.mod_eq_of_lt] at ho
    · exact ho
    · have h4 : (4 : Nat) ^ (n / 2) = 2 ^ n := by
        rw [show (4 : Nat) = 2 ^ 2 by norm_num, ← pow_mul]; congr 1; omega
      rw [h4]; exact hx

/-- C50: the circuit does not depend on the witness. -/
theorem C50_scalar_mul_uniform [DecidableEq F] [ScalarRepr F] (C : Edwards F d G) (base : G) (s n : Nat) :
    Uniform (· = ·) (scalarMul C base s n) (scalarMul C base s n) := by
  unfold scalarMul
  refine Uniform.ite (fun _ => Uniform.failure _) (fun _ => ?_)
  refine Uniform.bind (uniform_rangeCheck s n) (fun b _ e => ?_); subst e
  exact uniform_scalarMulWithBases C _ b

end

/-- the Jubjub curve satisfies everything that is assumed of the native points -/
def jubjub : Edwards (ZMod Bls.r) Jubjub.edwardsD Jubjub.Point where
  x P := P.x
  y P := P.y
  zero_x := rfl
  zero_y := rfl
  den_x P Q := Edwards.den_x Jubjub.complete P.on Q.on
  den_y P Q := Edwards.den_y Jubjub.complete P.on Q.on
  add_x _ _ := rfl
  add_y _ _ := rfl

instance : ScalarRepr (ZMod Bls.r) := zmodRepr Bls.r (by unfold Bls.r; norm_num)

/-- a point of the curve with `x = 3` -/
def samplePoint : Jubjub.Point where
  x := 3
  y := 26155723652191673091881779851507865815856437797311909079256717375290769542325
  on := by
    unfold Edwards.OnCurve Jubjub.edwardsD Bls.r
    reduce_mod_char

/-- the hypotheses are met: multiplying the sample point by the constant one of a fresh system -/
example : ∃ o cs, scalarMul jubjub samplePoint 1 4 CS.new = some (o, cs) ∧ WF cs ∧ HSat cs ∧
    Has cs o.x 3 := by
  have hv : ScalarRepr.val (1 : ZMod Bls.r) = 1 := by
    have := ScalarRepr.val_cast (F := ZMod Bls.r) 1 (by
      change 1 < Bls.r
      unfold Bls.r; norm_num)
    simpa using this
  obtain ⟨o, cs, pv, e, w, s, -, -, h⟩ := C50_scalar_mul_complete jubjub samplePoint 1 4 1 CS.new (by norm_num)
    (by norm_num) new_has.1 new_has.2 (by rw [hv]; norm_num) WF.new new_hsat
  rw [hv, one_nsmul] at h
  exact ⟨o, cs, e, w, s, h.1⟩

/-- a point made public on a fresh system -/
example : ∃ cs, (do let p ← newPointVar jubjub (fun _ => samplePoint); preparePiPoint p : Build (ZMod Bls.r) Unit) CS.new = some ((), cs) ∧
    cs.pubVars = [2, 3] := ⟨_, rfl, rfl⟩

end Verif.Plonk
