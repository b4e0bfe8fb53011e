import Verif.Plonk.Adv

/-!
Model of crypto/src/field_simulation.rs (elements of a foreign prime field as limbs over the BLS12-381 scalar
field) and of plonk/src/plonk/constraint_system/field_simulation/{fr_var,fr_mul_var}.rs (the same in a circuit).

`none` is a panic: an `assert!`, an index out of range, or a negative difference of `BigUint`s.
`BigUint` is `Nat`.  The BLS12-381 scalar field is a field `F` with canonical representatives (`ScalarRepr`), so
`BLSScalar::from(&BigUint)` is the cast and `into::<BigUint>()` is `ScalarRepr.val`.
-/

namespace Verif.SimFr

open Verif.Plonk

/-- models the trait `SimFrParams`, field_simulation.rs:9-35; limbs of constants are given as integers -/
structure Params where
  /-- `NUM_OF_LIMBS` -/
  limbs : Nat
  /-- `BIT_PER_LIMB` -/
  bits : Nat
  /-- `BIT_IN_TOP_LIMB` -/
  top : Nat
  /-- `NUM_OF_LIMBS_MUL` -/
  limbsMul : Nat
  /-- `NUM_OF_GROUPS` -/
  groups : Nat
  /-- `scalar_field_in_biguint` -/
  r : Nat
  /-- `scalar_field_in_limbs` -/
  rLimbs : List Nat
  /-- `scalar_field_sub_pad_in_limbs` -/
  padLimbs : List Nat
  /-- `scalar_field_sub_pad_in_biguint` -/
  pad : Nat

/-- models `SimFrParamsRistretto`, field_simulation.rs:41-84 -/
def ristretto : Params where
  limbs := 6
  bits := 43
  top := 38
  limbsMul := 6 * 2 - 1
  groups := 6
  r := 7237005577332262213973186563042994240857116359379907606001950938285454250989
  rLimbs := [3411763647469, 7643343815244, 358561053323, 0, 0, 137438953472]
  padLimbs := [10235290942407, 14133938423524, 9871776182178, 17592186044415, 17592186044414, 412316860414]
  pad := 21711016731996786641919559689128982722571349078139722818005852814856362752967

/-- models `SimFrParamsSecq256k1`, field_simulation.rs:90-133 -/
def secq256k1 : Params where
  limbs := 6
  bits := 44
  top := 36
  limbsMul := 6 * 2 - 1
  groups := 6
  r := 115792089237316195423570985008687907853269984665640564039457584007908834671663
  rLimbs := [17587891076143, 17592186044415, 17592186044415, 17592186044415, 17592186044415, 68719476735]
  padLimbs := [35175782152286, 35184372088830, 35184372088830, 35184372088830, 35184372088830, 137438953470]
  pad := 231584178474632390847141970017375815706539969331281128078915168015817669343326

/-- models `SimReducibility`, field_simulation.rs:137-145 -/
inductive Red where
  | strict
  | one
  | others (n : Nat)
deriving DecidableEq

/-- `BigUint::from(&SimReducibility)`, field_simulation.rs:147-155 -/
def Red.num : Red → Nat
  | .strict => 0
  | .one => 1
  | .others n => n

section
variable {F : Type} [Field F]

/-- models `SimFr`, field_simulation.rs:159-169 -/
structure Sim (F : Type) where
  limbs : List F
  val : Nat
  adds : Red

/-- models `SimFrMul`, field_simulation.rs:279-288 -/
structure SimMul (F : Type) where
  limbs : List F
  val : Nat
  prod : Nat

/-- models `Sub for &SimFr`, field_simulation.rs:181-209 -/
def Sim.sub (P : Params) (a b : Sim F) : Option (Sim F) := do
  guard (b.adds = .strict ∨ b.adds = .one)
  let limbs ← (List.range P.limbs).mapM (fun i => do
    let x ← a.limbs[i]?
    let p : Nat ← P.padLimbs[i]?
    let y ← b.limbs[i]?
    pure (x + (p : F) - y))
  guard (b.val ≤ a.val + P.pad)
  pure { limbs := limbs, val := a.val + P.pad - b.val, adds := .others (a.adds.num + 3) }

/-- the double loop `limbs[i + j] += a[i] * b[j]` over `m` limbs, field_simulation.rs:216-220 and 395-400 -/
def schoolbook (n m : Nat) (a b : List F) : Option (List F) :=
  (List.range n).foldlM (fun acc i => (List.range n).foldlM (fun acc j => do
    let x ← acc[i + j]?
    let y ← a[i]?
    let z ← b[j]?
    pure (acc.set (i + j) (x + y * z))) acc) (List.replicate m 0)

/-- models `Mul for &SimFr`, field_simulation.rs:211-228 -/
def Sim.mul (P : Params) (a b : Sim F) : Option (SimMul F) := do
  let limbs ← schoolbook P.limbs P.limbsMul a.limbs b.limbs
  pure { limbs := limbs, val := a.val * b.val, prod := (a.adds.num + 1) * (b.adds.num + 1) }

/-- the division loop of field_simulation.rs:238-242: `n` limbs of the remainder `rem` -/
def splitLimbs (step : Nat) : Nat → Nat → List Nat
  | 0, _ => []
  | n + 1, rem => rem % step :: splitLimbs step n (rem / step)

/-- models `From<&BigUint> for SimFr`, field_simulation.rs:230-247 -/
def ofBig (P : Params) (src : Nat) : Sim F :=
  { limbs := (splitLimbs (2 ^ P.bits) P.limbs src).map (fun (l : Nat) => (l : F)), val := src, adds := .strict }

section
variable [ScalarRepr F]

/-- the loop of field_simulation.rs:251-256 and 303-308 -/
def joinLimbs (step : Nat) (limbs : List F) : Nat :=
  limbs.reverse.foldl (fun res l => res * step + ScalarRepr.val l) 0

/-- models `Into<BigUint> for &SimFr`, field_simulation.rs:249-260 -/
def Sim.toBig (P : Params) (a : Sim F) : Option Nat := do
  let res := joinLimbs (2 ^ P.bits) a.limbs
  guard (res = a.val)
  pure res

/-- models `SimFr::is_zero`, field_simulation.rs:266-272 -/
def Sim.isZero (P : Params) (a : Sim F) : Option Bool := do
  let v ← a.toBig P
  pure (v % P.r == 0)

/-- models `Into<BigUint> for &SimFrMul`, field_simulation.rs:301-312 -/
def SimMul.toBig (P : Params) (a : SimMul F) : Option Nat := do
  let res := joinLimbs (2 ^ P.bits) a.limbs
  guard (a.val = res)
  pure res

end

/-- models `Add for &SimFrMul`, field_simulation.rs:314-329 -/
def SimMul.add (P : Params) (a b : SimMul F) : Option (SimMul F) := do
  let limbs ← (List.range P.limbsMul).foldlM (fun (l : List F) i => do
    let x ← l[i]?
    let y ← b.limbs[i]?
    pure (l.set i (x + y))) a.limbs
  pure { limbs := limbs, val := a.val + b.val, prod := a.prod + b.prod }

/-- models `Sub<&SimFr> for &SimFrMul`, field_simulation.rs:331-357 -/
def SimMul.sub (P : Params) (a : SimMul F) (b : Sim F) : Option (SimMul F) := do
  guard (b.adds.num ≤ 4)
  let limbs ← (List.range P.limbs).foldlM (fun (l : List F) i => do
    let x ← l[i]?
    let p : Nat ← P.padLimbs[i]?
    let y ← b.limbs[i]?
    pure (l.set i (x + (p : F) + (p : F) + (p : F) + (p : F) - y))) a.limbs
  guard (b.val ≤ a.val + P.pad + P.pad + P.pad + P.pad)
  pure { limbs := limbs, val := a.val + P.pad + P.pad + P.pad + P.pad - b.val, prod := a.prod + 12 }

/-- the groups of two limbs and their sizes; the `chunks(2)` loops of field_simulation.rs:410-424 -/
def groupLimbs (step : F) (limbs : List F) : Option (List (F × Nat)) :=
  (List.range ((limbs.length + 1) / 2)).mapM (fun i =>
    if 2 * i + 1 < limbs.length then do
      let x ← limbs[2 * i]?
      let y ← limbs[2 * i + 1]?
      pure (x + y * step, 2)
    else do
      let x ← limbs[2 * i]?
      pure (x, 1))

/-- the pad of a group of `k` limbs, field_simulation.rs:436-438 (`surfeit` is 5) -/
def groupPad (P : Params) (k : Nat) : Nat := 2 ^ ((k + 1) * P.bits + k + 5)

/-- `left + carry_in + pad - right`, field_simulation.rs:443-446 -/
def groupSum (P : Params) (l r cin : F) (k : Nat) : F := l + cin + (groupPad P k : F) - r

section
variable [ScalarRepr F]

/-- the carry, field_simulation.rs:447-448 -/
def groupCarry (P : Params) (l r cin : F) (k : Nat) : F :=
  ((ScalarRepr.val (groupSum P l r cin k) / 2 ^ (k * P.bits) : Nat) : F)

/-- the accumulated extra before splitting, field_simulation.rs:449 -/
def groupExtra (F : Type) [Field F] [ScalarRepr F] (P : Params) (extra k : Nat) : Nat :=
  extra + ScalarRepr.val (groupPad P k : F)

/-- the carry loop, field_simulation.rs:432-477; arguments are the zipped groups (left, right, number of limbs),
`carry_in` and `accumulated_extra`.  The last group is the one with nothing after it. -/
def carryLoop [DecidableEq F] (P : Params) : List (F × F × Nat) → F → Nat → Option Unit
  | [], _, _ => some ()
  | (l, r, k) :: rest, cin, extra => do
    guard (ScalarRepr.val r < groupPad P k)
    let carry := groupCarry P l r cin k
    let acc := groupExtra F P extra k
    let remainder : F := ((acc % 2 ^ (P.bits * k) : Nat) : F)
    guard (l + (groupPad P k : F) + cin - r = carry * ((2 ^ (P.bits * k) : Nat) : F) + remainder)
    if rest = [] then guard (carry = ((acc / 2 ^ (P.bits * k) : Nat) : F))
    else do
      guard (ScalarRepr.val carry < 2 ^ (5 + P.bits * 2))
      carryLoop P rest carry (acc / 2 ^ (P.bits * k))

/-- models `SimFrMul::enforce_zero`, field_simulation.rs:374-479; `bits() <= 5` is `< 32` -/
def SimMul.enforceZero [DecidableEq F] (P : Params) (a : SimMul F) : Option Unit := do
  guard (a.prod < 2 ^ 5)
  let cur ← a.toBig P
  let k := cur / P.r
  guard (cur % P.r = 0)
  guard (k ≤ P.r * 2 ^ 5)
  let kLimbs := (ofBig P k : Sim F).limbs
  let rk ← schoolbook P.limbs P.limbsMul (P.rLimbs.map (fun (l : Nat) => (l : F))) kLimbs
  let step : F := ((2 ^ P.bits : Nat) : F)
  let left ← groupLimbs step a.limbs
  let right ← groupLimbs step rk
  carryLoop P ((left.zip right).map (fun e => (e.1.1, e.2.1, e.1.2))) 0 0

/-! ### Circuit -/

/-- models `SimFrVar`, fr_var.rs:11-17 -/
structure SimVar (F : Type) where
  val : Sim F
  var : List Nat

/-- models `SimFrMulVar`, fr_mul_var.rs:13-19 -/
structure SimMulVar (F : Type) where
  val : SimMul F
  var : List Nat

/-- a gate with the given wires and selectors `q1 q2 q3 q4 qm2 qc qo`, the others being zero -/
def rawGate (a b c d o : Nat) (q1 q2 q3 q4 qm2 qc qo : F) : Gate F :=
  { w0 := a, w1 := b, w2 := c, w3 := d, w4 := o, q1 := q1, q2 := q2, q3 := q3, q4 := q4, qm1 := 0, qm2 := qm2
    qc := qc, qecc := 0, qh1 := 0, qh2 := 0, qh3 := 0, qh4 := 0, qo := qo }

/-- Push one gate whose output is a new variable with value `x`.  The code pushes wires without checking that they
are existing variables; the model panics if they are not. -/
def newGate (vs : List Nat) (x : F) (g : Nat → Gate F) : Build F Nat := do
  assertVars vs
  let o ← newVar (fun _ => x)
  pushGate (g o)
  pure o

/-- models `SimFrVar::sub`, fr_var.rs:29-62 -/
def SimVar.sub (P : Params) (a b : SimVar F) : Build F (SimVar F) := do
  let val ← liftM (a.val.sub P b.val)
  let var ← (List.range P.limbs).mapM (fun i => do
    let x ← liftM (val.limbs[i]?)
    let p : Nat ← liftM (P.padLimbs[i]?)
    let u ← liftM (a.var[i]?)
    let v ← liftM (b.var[i]?)
    newGate [u, v] x (fun o => rawGate u 0 v 0 o 1 0 (-1) 0 0 (p : F) 1))
  pure { val := val, var := var }

/-- `left_array` of fr_var.rs:76-79 and fr_mul_var.rs:145-148 -/
def lefts (n i : Nat) : List Nat := List.range' (max n (i + 1) - n) (min i (n - 1) + 1 - (max n (i + 1) - n))

/-- the inner loop of fr_var.rs:83-106; the state is `(prior_res, prior_res_val)` -/
def mulInner (a b : SimVar F) (i : Nat) (s : Nat × F) (left : Nat) : Build F (Nat × F) := do
  let x ← liftM (a.val.limbs[left]?)
  let y ← liftM (b.val.limbs[i - left]?)
  let u ← liftM (a.var[left]?)
  let v ← liftM (b.var[i - left]?)
  let o ← newGate [s.1, u, v] (s.2 + x * y) (fun o => rawGate s.1 0 u v o 1 0 0 0 1 0 1)
  pure (o, s.2 + x * y)

/-- models `SimFrVar::mul`, fr_var.rs:65-111 -/
def SimVar.mul (P : Params) (a b : SimVar F) : Build F (SimMulVar F) := do
  let val ← liftM (a.val.mul P b.val)
  let var ← (List.range P.limbsMul).mapM (fun i => do
    let s ← (lefts P.limbs i).foldlM (mulInner a b i) (zeroVar, 0)
    pure s.1)
  pure { val := val, var := var }

/-- models `alloc_constant`, fr_var.rs:114-122 -/
def allocConstant (P : Params) (val : Sim F) : Build F (SimVar F) := do
  let var ← (List.range P.limbs).mapM (fun i => do
    let x ← liftM (val.limbs[i]?)
    let v ← newVar (fun _ => x)
    insertConstantGate v x
    pure v)
  pure { val := val, var := var }

/-- models `alloc_input`, fr_var.rs:125-132 -/
def allocInput (P : Params) (val : Sim F) : Build F (SimVar F) := do
  let var ← (List.range P.limbs).mapM (fun i => do
    let x ← liftM (val.limbs[i]?)
    newVar (fun _ => x))
  pure { val := val, var := var }

/-- models `alloc_witness`, fr_var.rs:135-154 -/
def allocWitness (P : Params) (val : Sim F) : Build F (SimVar F × List Nat) := do
  if val.adds = .strict then do
    let l ← (List.range P.limbs).mapM (fun i => do
      let x ← liftM (val.limbs[i]?)
      let v ← newVar (fun _ => x)
      let b ← rangeCheck v (if i = P.limbs - 1 then P.top else P.bits)
      pure (v, b))
    pure ({ val := { val with adds := .one }, var := l.map Prod.fst }, l.flatMap Prod.snd)
  else failure

/-- models `alloc_witness_bounded_total_bits`, fr_var.rs:157-185; the remaining bits before limb `i` are
`total - i * BIT_PER_LIMB` -/
def allocBounded (P : Params) (val : Sim F) (total : Nat) : Build F (SimVar F × List Nat) := do
  if val.adds = .strict then do
    let l ← (List.range P.limbs).mapM (fun i =>
      if total - i * P.bits ≠ 0 then do
        let x ← liftM (val.limbs[i]?)
        let v ← newVar (fun _ => x)
        let b ← rangeCheck v (min (total - i * P.bits) P.bits)
        pure (v, b)
      else pure (zeroVar, []))
    pure ({ val := if total = 253 then { val with adds := .one } else val, var := l.map Prod.fst },
      l.flatMap Prod.snd)
  else failure

/-- models `SimFrMulVar::add`, fr_mul_var.rs:31-61 -/
def SimMulVar.add (P : Params) (a b : SimMulVar F) : Build F (SimMulVar F) := do
  let val ← liftM (a.val.add P b.val)
  let var ← (List.range P.limbsMul).mapM (fun i => do
    let x ← liftM (val.limbs[i]?)
    let u ← liftM (a.var[i]?)
    let v ← liftM (b.var[i]?)
    newGate [u, v] x (fun o => rawGate u 0 v 0 o 1 0 1 0 0 0 1))
  pure { val := val, var := var }

/-- models `SimFrMulVar::sub`, fr_mul_var.rs:64-102; only the first `NUM_OF_LIMBS` variables are replaced -/
def SimMulVar.sub (P : Params) (a : SimMulVar F) (b : SimVar F) : Build F (SimMulVar F) := do
  let val ← liftM (a.val.sub P b.val)
  let var ← (List.range P.limbs).mapM (fun i => do
    let x ← liftM (val.limbs[i]?)
    let p : Nat ← liftM (P.padLimbs[i]?)
    let u ← liftM (a.var[i]?)
    let v ← liftM (b.var[i]?)
    newGate [u, v] x (fun o => rawGate u 0 v 0 o 1 0 (-1) 0 0 ((p : F) + (p : F) + (p : F) + (p : F)) 1))
  pure { val := val, var := var ++ a.var.drop P.limbs }

/-- the inner loop of fr_mul_var.rs:151-177 over the chunks of three of `left_array` -/
def rkInner (P : Params) (kv : List Nat) (i : Nat) : List Nat → Nat → Build F Nat
  | [], res => pure res
  | [a], res => do
    let u ← liftM (kv[i - a]?)
    let x : Nat ← liftM (P.rLimbs[a]?)
    linearCombine res u 0 0 1 (x : F) 0 0
  | [a, b], res => do
    let u ← liftM (kv[i - a]?)
    let x : Nat ← liftM (P.rLimbs[a]?)
    let v ← liftM (kv[i - b]?)
    let y : Nat ← liftM (P.rLimbs[b]?)
    linearCombine res u v 0 1 (x : F) (y : F) 0
  | a :: b :: c :: rest, res => do
    let u ← liftM (kv[i - a]?)
    let x : Nat ← liftM (P.rLimbs[a]?)
    let v ← liftM (kv[i - b]?)
    let y : Nat ← liftM (P.rLimbs[b]?)
    let t ← liftM (kv[i - c]?)
    let z : Nat ← liftM (P.rLimbs[c]?)
    let res ← linearCombine res u v t 1 (x : F) (y : F) (z : F)
    rkInner P kv i rest res

/-- a group of limbs: left and right values and variables, number of limbs -/
structure Grp (F : Type) where
  l : F
  r : F
  lv : Nat
  rv : Nat
  k : Nat

/-- one step of the grouping loop, fr_mul_var.rs:192-232 -/
def groupStep (P : Params) (a : SimMulVar F) (rk : List F) (rkv : List Nat) (i : Nat) : Build F (Grp F) := do
  let step : F := ((2 ^ P.bits : Nat) : F)
  if i * 2 + 1 < P.limbsMul then do
    let x ← liftM (a.val.limbs[2 * i]?)
    let y ← liftM (a.val.limbs[2 * i + 1]?)
    let u ← liftM (a.var[2 * i]?)
    let v ← liftM (a.var[2 * i + 1]?)
    let lv ← linearCombine u 0 v 0 1 0 step 0
    let x' ← liftM (rk[2 * i]?)
    let y' ← liftM (rk[2 * i + 1]?)
    let u' ← liftM (rkv[2 * i]?)
    let v' ← liftM (rkv[2 * i + 1]?)
    let rv ← linearCombine u' 0 v' 0 1 0 step 0
    pure { l := x + y * step, r := x' + y' * step, lv := lv, rv := rv, k := 2 }
  else do
    let x ← liftM (a.val.limbs[2 * i]?)
    let u ← liftM (a.var[2 * i]?)
    let x' ← liftM (rk[2 * i]?)
    let u' ← liftM (rkv[2 * i]?)
    pure { l := x, r := x', lv := u, rv := u', k := 1 }

/-- the gate of fr_mul_var.rs:282-297 -/
def carryGate (P : Params) (k acc : Nat) (lv cv rv ov : Nat) : Gate F :=
  rawGate lv cv rv ov 0 (-1) (-1) 1 ((2 ^ (P.bits * k) : Nat) : F) 0
    (-(groupPad P k : F) + ((acc % 2 ^ (P.bits * k) : Nat) : F)) 0

/-- the carry loop in the circuit, fr_mul_var.rs:237-308 -/
def carryLoopC (P : Params) : List (Grp F) → F → Nat → Nat → Build F Unit
  | [], _, _, _ => pure ()
  | g :: rest, cin, cinVar, extra =>
    if ScalarRepr.val g.r < groupPad P g.k then do
      let carry := groupCarry P g.l g.r cin g.k
      let acc := groupExtra F P extra g.k
      let cv ← newGate [g.lv, cinVar, g.rv] carry (fun o => carryGate P g.k acc g.lv cinVar g.rv o)
      if rest = [] then insertConstantGate cv ((acc / 2 ^ (P.bits * g.k) : Nat) : F)
      else do
        let _ ← rangeCheck cv (5 + P.bits * 2)
        carryLoopC P rest carry cv (acc / 2 ^ (P.bits * g.k))
    else failure

/-- models `SimFrMulVar::enforce_zero`, fr_mul_var.rs:105-310; `dbg` tells whether debug assertions are compiled
in (lines 123 and 126) -/
def SimMulVar.enforceZero (dbg : Bool) (P : Params) (a : SimMulVar F) : Build F Unit := do
  if a.val.prod < 2 ^ 5 then do
    let cur ← liftM (a.val.toBig P)
    let k := cur / P.r
    if dbg = true ∧ ¬ (cur % P.r = 0 ∧ k < P.r * 2 ^ 5) then failure
    else do
      let kLimbs := (ofBig P k : Sim F).limbs
      let kv ← (List.range P.limbs).mapM (fun i => do
        let x ← liftM (kLimbs[i]?)
        let v ← newVar (fun _ => x)
        let _ ← rangeCheck v (if i = P.limbs - 1 then P.top + 5 else P.bits)
        pure v)
      let rk ← liftM (schoolbook P.limbs P.limbsMul (P.rLimbs.map (fun (l : Nat) => (l : F))) kLimbs)
      let rkv ← (List.range P.limbsMul).mapM (fun i => rkInner P kv i (lefts P.limbs i) zeroVar)
      let groups ← (List.range P.groups).mapM (groupStep P a rk rkv)
      carryLoopC P groups 0 zeroVar 0
  else failure

end
end

end Verif.SimFr
