import Mathlib.Algebra.Field.Basic
import Mathlib.Algebra.CharP.Defs
import Mathlib.Data.Nat.Log
import Verif.Bytes

/-!
Model of the TurboPLONK constraint system of plonk/src/plonk/constraint_system/turbo.rs and of the wiring
functions of plonk/src/plonk/constraint_system/mod.rs.

Representation.  The code stores 13 selector columns and 5 wiring columns; every gate pushes one entry to each.
The model stores the transposed table, a list of gates, so `size` is the length of that list.  The Anemoi
parameters and indices (turbo.rs:27-35, 731-744) are not used by the prover or the verifier at this commit and
are left out, as is the `debug` feature.

A method `&mut self -> A` is a state transformer `CS F → Option (A × CS F)`; `none` is a panic (an `assert!` or
an index out of bounds).
-/

namespace Verif.Plonk

/-- What the circuits use of the `Scalar` trait (algebra/src/traits.rs:13-130) beyond field arithmetic: the
prime order and the canonical representative, whose 32 little-endian bytes are `to_bytes`. -/
class ScalarRepr (F : Type) [Field F] where
  /-- the field size -/
  order : Nat
  /-- canonical representative -/
  val : F → Nat
  val_lt : ∀ x, val x < order
  cast_val : ∀ x, (val x : F) = x
  val_cast : ∀ n, n < order → val (n : F) = n
  order_le : order ≤ 256 ^ 32

/-- one gate: five wires (variable indices) and thirteen selectors; turbo.rs:14-25 -/
structure Gate (F : Type) where
  w0 : Nat
  w1 : Nat
  w2 : Nat
  w3 : Nat
  w4 : Nat
  q1 : F
  q2 : F
  q3 : F
  q4 : F
  qm1 : F
  qm2 : F
  qc : F
  qecc : F
  qh1 : F
  qh2 : F
  qh3 : F
  qh4 : F
  qo : F

/-- models `TurboCS`, turbo.rs:21-54 -/
structure CS (F : Type) where
  gates : List (Gate F)
  numVars : Nat
  /-- `public_vars_constraint_indices` -/
  pubCons : List Nat
  /-- `public_vars_witness_indices` -/
  pubVars : List Nat
  /-- `boolean_constraint_indices` -/
  boolIdx : List Nat
  witness : List F

/-- state transformer of the constraint system -/
abbrev Build (F : Type) := StateT (CS F) Option

section
variable {F : Type} [Field F]

/-- models `eval_gate_func`, turbo.rs:116-153; `none` is the error of lines 117-119 -/
def evalGateFunc (w q : List F) (pi : F) : Option F :=
  match w, q with
  | [w0, w1, w2, w3, w4], [q0, q1, q2, q3, q4, q5, q6, q7, q8, q9, q10, q11, q12] =>
    some (q0 * w0 + q1 * w1 + q2 * w2 + q3 * w3 + q4 * (w0 * w1) + q5 * (w2 * w3)
      + q7 * w0 * w1 * w2 * w3 * w4 + q8 * w0 ^ 5 + q9 * w1 ^ 5 + q10 * w2 ^ 5 + q11 * w3 ^ 5
      + (q6 + pi) - q12 * w4)
  | _, _ => none

/-- models `eval_selector_multipliers`, turbo.rs:157-184; the code only requires at least five wires and uses
the first five -/
def evalSelectorMultipliers (w : List F) : Option (List F) :=
  match w with
  | w0 :: w1 :: w2 :: w3 :: w4 :: _ =>
    some [w0, w1, w2, w3, w0 * w1, w2 * w3, 1, w0 * w1 * w2 * w3 * w4, w0 ^ 5, w1 ^ 5, w2 ^ 5, w3 ^ 5, -w4]
  | _ => none

/-- the wires of a gate, in the order of the wiring columns -/
def Gate.wires (g : Gate F) : List Nat := [g.w0, g.w1, g.w2, g.w3, g.w4]

/-- the selectors of a gate, in the order of the selector columns (turbo.rs:769-803) -/
def Gate.sels (g : Gate F) : List F :=
  [g.q1, g.q2, g.q3, g.q4, g.qm1, g.qm2, g.qc, g.qecc, g.qh1, g.qh2, g.qh3, g.qh4, g.qo]

/-- value of a variable in the stored witness; indices are in range in every well-formed state -/
def CS.value (cs : CS F) (i : Nat) : F := cs.witness[i]?.getD 0

/-- models `TurboCS::new`, turbo.rs:241-262 -/
def CS.new : CS F :=
  { gates := [], numVars := 2, pubCons := [], pubVars := [], boolIdx := [], witness := [0, 1] }

/-- models `zero_var`, turbo.rs:265-267 -/
def zeroVar : Nat := 0

/-- models `one_var`, turbo.rs:270-272 -/
def oneVar : Nat := 1

/-- `assert!(x < self.num_vars)` for the listed variables -/
def assertVars (vs : List Nat) : Build F Unit := fun cs =>
  if vs.all (fun v => decide (v < cs.numVars)) then some ((), cs) else none

/-- push one entry to every selector and wiring column and `finish_new_gate` (turbo.rs:464-466, 768-803) -/
def pushGate (g : Gate F) : Build F Unit := fun cs => some ((), { cs with gates := cs.gates ++ [g] })

/-- models `new_variable`, turbo.rs:350-361; the value is given as a function of the stored witness -/
def newVar (value : (Nat → F) → F) : Build F Nat := fun cs =>
  some (cs.numVars, { cs with numVars := cs.numVars + 1, witness := cs.witness ++ [value cs.value] })

/-- models `add_variables`, turbo.rs:364-377 -/
def addVariables (values : List F) : Build F Unit := fun cs =>
  some ((), { cs with numVars := cs.numVars + values.length, witness := cs.witness ++ values })

/-- the gate of turbo.rs:289-300 -/
def lcGate (a b c d o : Nat) (q1 q2 q3 q4 : F) : Gate F :=
  { w0 := a, w1 := b, w2 := c, w3 := d, w4 := o, q1 := q1, q2 := q2, q3 := q3, q4 := q4, qm1 := 0, qm2 := 0
    qc := 0, qecc := 0, qh1 := 0, qh2 := 0, qh3 := 0, qh4 := 0, qo := 1 }

/-- models `insert_lc_gate`, turbo.rs:275-302 -/
def insertLcGate (a b c d o : Nat) (q1 q2 q3 q4 : F) : Build F Unit := do
  assertVars [a, b, c, d]
  assertVars [o]
  pushGate (lcGate a b c d o q1 q2 q3 q4)

/-- models `insert_add_gate`, turbo.rs:305-314 -/
def insertAddGate (l r o : Nat) : Build F Unit := insertLcGate l r 0 0 o 1 1 0 0

/-- models `insert_sub_gate`, turbo.rs:317-326 -/
def insertSubGate (l r o : Nat) : Build F Unit := insertLcGate l r 0 0 o 1 (-1) 0 0

/-- the gate of turbo.rs:333-345 -/
def mulGate (l r o : Nat) : Gate F :=
  { w0 := l, w1 := r, w2 := 0, w3 := 0, w4 := o, q1 := 0, q2 := 0, q3 := 0, q4 := 0, qm1 := 1, qm2 := 0
    qc := 0, qecc := 0, qh1 := 0, qh2 := 0, qh3 := 0, qh4 := 0, qo := 1 }

/-- models `insert_mul_gate`, turbo.rs:329-347 -/
def insertMulGate (l r o : Nat) : Build F Unit := do
  assertVars [l, r, o]
  pushGate (mulGate l r o)

/-- models `linear_combine`, turbo.rs:469-492 -/
def linearCombine (a b c d : Nat) (q1 q2 q3 q4 : F) : Build F Nat := do
  assertVars [a, b, c, d]
  let o ← newVar (fun w => w a * q1 + w b * q2 + w c * q3 + w d * q4)
  insertLcGate a b c d o q1 q2 q3 q4
  pure o

/-- models `add`, turbo.rs:495-501 -/
def addV (l r : Nat) : Build F Nat := do
  assertVars [l, r]
  let o ← newVar (fun w => w l + w r)
  insertAddGate l r o
  pure o

/-- models `sub`, turbo.rs:504-510 -/
def subV (l r : Nat) : Build F Nat := do
  assertVars [l, r]
  let o ← newVar (fun w => w l - w r)
  insertSubGate l r o
  pure o

/-- models `equal`, turbo.rs:513-516 -/
def equalV (l r : Nat) : Build F Unit := insertSubGate l r zeroVar

/-- models `mul`, turbo.rs:519-525 -/
def mulV (l r : Nat) : Build F Nat := do
  assertVars [l, r]
  let o ← newVar (fun w => w l * w r)
  insertMulGate l r o
  pure o

/-- models `insert_boolean_gate`, turbo.rs:529-531 -/
def insertBooleanGate (v : Nat) : Build F Unit := insertMulGate v v v

/-- models `attach_boolean_constraint_to_gate`, turbo.rs:727-729; `size - 1` underflows on an empty system -/
def attachBoolean : Build F Unit := fun cs =>
  if cs.gates.length = 0 then none
  else some ((), { cs with boolIdx := cs.boolIdx ++ [cs.gates.length - 1] })

/-- models `compute_binary_le`, turbo.rs:216-230 -/
def computeBinaryLe (bytes : Bytes) : List F :=
  bytes.flatMap (fun b => (List.range 8).map (fun i => if b.toNat / 2 ^ i % 2 = 0 then 0 else 1))

/-- `self.witness[var].to_bytes()` in bits, padded with zeros to at least `n` bits; turbo.rs:544-548 -/
def binaryRepr [ScalarRepr F] (x : F) (n : Nat) : List F :=
  let b : List F := computeBinaryLe (leBytes 32 (ScalarRepr.val x))
  b ++ List.replicate (n - b.length) 0

/-- allocate one variable for each of the first `n` entries of the (witness dependent) list; turbo.rs:550-554 -/
def newVars (n : Nat) (values : (Nat → F) → List F) : Build F (List Nat) := fun cs =>
  let vals := values cs.value
  if vals.length < n then none
  else some ((List.range n).map (cs.numVars + ·),
    { cs with numVars := cs.numVars + n, witness := cs.witness ++ vals.take n })

/-- one step of the loop of turbo.rs:565-579 -/
def rangeStep (b : List Nat) (n : Nat) (acc i : Nat) : Build F Nat := do
  let b1 ← liftM (b[n - 1 - i * 3 - 1]?)
  let b2 ← liftM (b[n - 1 - i * 3 - 2]?)
  let b3 ← liftM (b[n - 1 - i * 3 - 3]?)
  let acc ← linearCombine acc b1 b2 b3 8 4 2 1
  attachBoolean
  pure acc

/-- the last gate of the range check, turbo.rs:581-592; `rem` is the number of remaining bits `(n - 1) - 3 * m` -/
def rangeFinal (b : List Nat) (acc var rem : Nat) : Build F Unit :=
  match rem with
  | 1 => do
    let b0 ← liftM (b[0]?)
    insertLcGate acc b0 0 0 var 2 1 0 0
  | 2 => do
    let b1 ← liftM (b[1]?)
    let b0 ← liftM (b[0]?)
    insertLcGate acc b1 b0 0 var 4 2 1 0
  | _ => do
    let b2 ← liftM (b[2]?)
    let b1 ← liftM (b[1]?)
    let b0 ← liftM (b[0]?)
    insertLcGate acc b2 b1 b0 var 8 4 2 1

/-- models `range_check`, turbo.rs:541-595 -/
def rangeCheck [ScalarRepr F] (var n : Nat) : Build F (List Nat) := do
  assertVars [var]
  if n < 2 then failure
  else
    let b ← newVars n (fun w => (binaryRepr (w var) n).take n)
    let top ← liftM (b[n - 1]?)
    insertBooleanGate top
    let acc ← (List.range ((n - 2) / 3)).foldlM (rangeStep b n) top
    rangeFinal b acc var ((n - 1) - 3 * ((n - 2) / 3))
    attachBoolean
    pure b

/-- the gate of turbo.rs:605-624 -/
def selectGate (v0 v1 bit o : Nat) : Gate F :=
  { w0 := bit, w1 := v0, w2 := bit, w3 := v1, w4 := o, q1 := 0, q2 := 1, q3 := 0, q4 := 0, qm1 := -1, qm2 := 1
    qc := 0, qecc := 0, qh1 := 0, qh2 := 0, qh3 := 0, qh4 := 0, qo := 1 }

/-- models `select`, turbo.rs:601-627 -/
def selectV [DecidableEq F] (v0 v1 bit : Nat) : Build F Nat := do
  assertVars [v0, v1, bit]
  let o ← newVar (fun w => if w bit = 0 then w v0 else w v1)
  pushGate (selectGate v0 v1 bit o)
  pure o

/-- models `is_equal_or_not_equal`, turbo.rs:645-667; the field inverse of Lean maps zero to zero, as
`inv().unwrap_or(zero)` does -/
def isEqualOrNotEqual (l r : Nat) : Build F (Nat × Nat) := do
  let diff ← subV l r
  let inv ← newVar (fun w => (w diff)⁻¹)
  let m ← mulV diff inv
  let z ← subV oneVar m
  insertMulGate diff z zeroVar
  pure (z, m)

/-- models `is_equal`, turbo.rs:631-634 -/
def isEqual (l r : Nat) : Build F Nat := do
  let p ← isEqualOrNotEqual l r
  pure p.1

/-- models `is_not_equal`, turbo.rs:638-641 -/
def isNotEqual (l r : Nat) : Build F Nat := do
  let p ← isEqualOrNotEqual l r
  pure p.2

/-- the gate of turbo.rs:672-682 -/
def constGate (v : Nat) (c : F) : Gate F :=
  { w0 := v, w1 := v, w2 := v, w3 := v, w4 := v, q1 := 0, q2 := 0, q3 := 0, q4 := 0, qm1 := 0, qm2 := 0
    qc := c, qecc := 0, qh1 := 0, qh2 := 0, qh3 := 0, qh4 := 0, qo := 1 }

/-- models `insert_constant_gate` and `insert_constant_gate_for_input`, turbo.rs:670-717 -/
def insertConstantGate (v : Nat) (c : F) : Build F Unit := do
  assertVars [v]
  pushGate (constGate v c)

/-- models `prepare_pi_variable`, turbo.rs:720-724 -/
def preparePi (v : Nat) : Build F Unit := fun cs =>
  insertConstantGate v 0
    { cs with pubVars := cs.pubVars ++ [v], pubCons := cs.pubCons ++ [cs.gates.length] }

/-- the gate added by padding: all selectors zero, all wires variable zero -/
def padGate : Gate F :=
  { w0 := 0, w1 := 0, w2 := 0, w3 := 0, w4 := 0, q1 := 0, q2 := 0, q3 := 0, q4 := 0, qm1 := 0, qm2 := 0
    qc := 0, qecc := 0, qh1 := 0, qh2 := 0, qh3 := 0, qh4 := 0, qo := 0 }

/-- least power of two at least `n` (`next_power_of_two` of the standard library; 1 for 0) -/
def nextPow2 (n : Nat) : Nat := 2 ^ Nat.clog 2 n

/-- models `pad`, turbo.rs:747-766 -/
def pad : Build F Unit := fun cs =>
  some ((), { cs with gates := cs.gates ++ List.replicate (nextPow2 cs.gates.length - cs.gates.length) padGate })

/-! ### Rescue gates, plonk/src/plonk/constraint_system/rescue.rs -/

/-- models `add_constant`, rescue.rs:141-159; reading `self.witness[var]` panics when out of range -/
def addConstant (v : Nat) (c : F) : Build F Nat := do
  assertVars [v]
  let o ← newVar (fun w => w v + c)
  pushGate
    { w0 := v, w1 := 0, w2 := 0, w3 := 0, w4 := o, q1 := 1, q2 := 0, q3 := 0, q4 := 0, qm1 := 0, qm2 := 0
      qc := c, qecc := 0, qh1 := 0, qh2 := 0, qh3 := 0, qh4 := 0, qo := 1 }
  pure o

/-- models `add_linear_op_constraint`, rescue.rs:163-192; slices of length four are 4-tuples -/
def addLinearOp (v : Nat × Nat × Nat × Nat) (k : F × F × F × F) (c : F) : Build F Nat := do
  assertVars [v.1, v.2.1, v.2.2.1, v.2.2.2]
  let o ← newVar (fun w => c + k.1 * w v.1 + k.2.1 * w v.2.1 + k.2.2.1 * w v.2.2.1 + k.2.2.2 * w v.2.2.2)
  pushGate
    { w0 := v.1, w1 := v.2.1, w2 := v.2.2.1, w3 := v.2.2.2, w4 := o, q1 := k.1, q2 := k.2.1, q3 := k.2.2.1
      q4 := k.2.2.2, qm1 := 0, qm2 := 0, qc := c, qecc := 0, qh1 := 0, qh2 := 0, qh3 := 0, qh4 := 0, qo := 1 }
  pure o

/-- models `add_non_linear_op_constraint`, rescue.rs:196-225 -/
def addNonLinearOp (v : Nat × Nat × Nat × Nat) (k : F × F × F × F) (c : F) : Build F Nat := do
  assertVars [v.1, v.2.1, v.2.2.1, v.2.2.2]
  let o ← newVar (fun w => c + k.1 * w v.1 ^ 5 + k.2.1 * w v.2.1 ^ 5 + k.2.2.1 * w v.2.2.1 ^ 5
    + k.2.2.2 * w v.2.2.2 ^ 5)
  pushGate
    { w0 := v.1, w1 := v.2.1, w2 := v.2.2.1, w3 := v.2.2.2, w4 := o, q1 := 0, q2 := 0, q3 := 0, q4 := 0
      qm1 := 0, qm2 := 0, qc := c, qecc := 0, qh1 := k.1, qh2 := k.2.1, qh3 := k.2.2.1, qh4 := k.2.2.2, qo := 1 }
  pure o

/-- models `add_pow_5_inv_constraint`, rescue.rs:229-250; `e` is the exponent `ALPHA_INV` -/
def addPow5Inv (e : Nat) (v : Nat) : Build F Nat := do
  assertVars [v]
  let o ← newVar (fun w => w v ^ e)
  pushGate
    { w0 := 0, w1 := 0, w2 := 0, w3 := o, w4 := v, q1 := 0, q2 := 0, q3 := 0, q4 := 0, qm1 := 0, qm2 := 0
      qc := 0, qecc := 0, qh1 := 0, qh2 := 0, qh3 := 0, qh4 := 1, qo := 1 }
  pure o

/-- a Rescue state of variables (`StateVar`, rescue.rs:20) -/
abbrev SV := Nat × Nat × Nat × Nat

/-- a Rescue state of values (`State`, rescue.rs:24) -/
abbrev St (F : Type) := F × F × F × F

/-- models `new_rescue_state_variable`, rescue.rs:66-73; the values may depend on the witness -/
def newStateVar (s : (Nat → F) → St F) : Build F SV := do
  let a ← newVar (fun w => (s w).1)
  let b ← newVar (fun w => (s w).2.1)
  let c ← newVar (fun w => (s w).2.2.1)
  let d ← newVar (fun w => (s w).2.2.2)
  pure (a, b, c, d)

/-- models `add_constant_state`, rescue.rs:100-108 -/
def addConstantState (v : SV) (k : St F) : Build F SV := do
  let a ← addConstant v.1 k.1
  let b ← addConstant v.2.1 k.2.1
  let c ← addConstant v.2.2.1 k.2.2.1
  let d ← addConstant v.2.2.2 k.2.2.2
  pure (a, b, c, d)

/-- models `linear_op`, rescue.rs:111-118 -/
def linearOp (v : SV) (m : St (St F)) (k : St F) : Build F SV := do
  let a ← addLinearOp v m.1 k.1
  let b ← addLinearOp v m.2.1 k.2.1
  let c ← addLinearOp v m.2.2.1 k.2.2.1
  let d ← addLinearOp v m.2.2.2 k.2.2.2
  pure (a, b, c, d)

/-- models `non_linear_op`, rescue.rs:121-128 -/
def nonLinearOp (v : SV) (m : St (St F)) (k : St F) : Build F SV := do
  let a ← addNonLinearOp v m.1 k.1
  let b ← addNonLinearOp v m.2.1 k.2.1
  let c ← addNonLinearOp v m.2.2.1 k.2.2.1
  let d ← addNonLinearOp v m.2.2.2 k.2.2.2
  pure (a, b, c, d)

/-- models `pow_5_inv`, rescue.rs:131-138 -/
def pow5Inv (e : Nat) (v : SV) : Build F SV := do
  let a ← addPow5Inv e v.1
  let b ← addPow5Inv e v.2.1
  let c ← addPow5Inv e v.2.2.1
  let d ← addPow5Inv e v.2.2.2
  pure (a, b, c, d)

/-- one step of the loop rescue.rs:88-95; `rk` is the pair (r, key) -/
def rescueStep (e : Nat) (m : St (St F)) (v : SV) (rk : St F × Nat) : Build F SV :=
  if rk.2 % 2 = 0 then do
    let v ← pow5Inv e v
    linearOp v m rk.1
  else nonLinearOp v m rk.1

/-- models `rescue_hash`, rescue.rs:76-97, for the round keys `keys` (`key_scheduling` of the zero key, see
`Verif/Rescue`), the matrix `m` and the exponent `e`; an empty key list panics at `keys[0]` -/
def rescueHash (e : Nat) (m : St (St F)) (keys : List (St F)) (v : SV) : Build F SV :=
  match keys with
  | [] => failure
  | k0 :: ks => do
    let v ← addConstantState v k0
    ks.zipIdx.foldlM (rescueStep e m) v

/-! ### Witness check and wiring -/

/-- the loop of turbo.rs:827-846: the last public variable attached to gate `i`; `none` if some attached value
differs from the witness -/
def publicAt (cs : CS F) [DecidableEq F] (w : List F) (online : List F) (i : Nat) : Option F :=
  ((cs.pubCons.zip cs.pubVars).zip online).foldlM (fun acc e =>
    if e.1.1 = i then
      match w[e.1.2]? with
      | some x => if x = e.2 then some e.2 else none
      | none => none
    else some acc) 0

/-- models `verify_witness`, turbo.rs:813-866 (errors and panics are `false`) -/
def CS.verifyWitness [DecidableEq F] (cs : CS F) (w online : List F) : Bool :=
  w.length == cs.numVars && online.length == cs.pubVars.length && online.length == cs.pubCons.length &&
  cs.gates.zipIdx.all (fun e =>
    match publicAt cs w online e.2, e.1.wires.mapM (fun v => w[v]?) with
    | some pi, some vals => evalGateFunc vals e.1.sels pi == some 0
    | _, _ => false)

/-- the concatenated wiring columns, mod.rs:59-62 -/
def CS.wiring (cs : CS F) : List Nat :=
  cs.gates.map (·.w0) ++ cs.gates.map (·.w1) ++ cs.gates.map (·.w2) ++ cs.gates.map (·.w3) ++ cs.gates.map (·.w4)

/-- the inner loop of mod.rs:72-77 started at position `i` with variable `x`: returns the updated permutation
and the last position; positions are those of the tail `v[i+1..]`, starting at `j` -/
def permInner (x : Nat) : List Nat → Nat → List Nat × Nat → List Nat × Nat
  | [], _, s => s
  | y :: ys, j, (perm, prev) =>
    if y = x then permInner x ys (j + 1) (perm.set prev j, j) else permInner x ys (j + 1) (perm, prev)

/-- the outer loop of mod.rs:66-80 over the positions from `i` on -/
def permOuter : List Nat → Nat → List Nat × List Bool → List Nat × List Bool
  | [], _, s => s
  | x :: xs, i, (perm, marked) =>
    if marked[x]?.getD false then permOuter xs (i + 1) (perm, marked)
    else
      let r := permInner x xs (i + 1) (perm, i)
      permOuter xs (i + 1) (r.1.set r.2 i, marked.set x true)

/-- models `compute_permutation`, mod.rs:54-82, on the concatenated wiring `v` -/
def computePermutation (v : List Nat) (numVars : Nat) : List Nat :=
  (permOuter v 0 (List.replicate v.length 0, List.replicate numVars false)).1

/-- models `extend_witness`, mod.rs:95-103 -/
def extendWitness (v : List Nat) (w : List F) : Option (List F) := v.mapM (fun i => w[i]?)

end

end Verif.Plonk
