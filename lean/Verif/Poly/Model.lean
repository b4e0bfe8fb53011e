import Mathlib.Algebra.Polynomial.Basic
import Mathlib.Algebra.Polynomial.Eval.Defs
import Verif.Res

/-!
Model of plonk/src/poly_commit/field_polynomial.rs: `FpPolynomial` is its vector of coefficients, low order first.
-/

namespace Verif.Poly

section
variable {F : Type} [Field F] [DecidableEq F]

/-- the loop of `trim_coefs` on the reversed vector -/
def trimRev : List F → List F
  | a :: b :: l => if a = 0 then trimRev (b :: l) else a :: b :: l
  | l => l

/-- models `trim_coefs`, field_polynomial.rs:139-144 -/
def trim (l : List F) : List F := (trimRev l.reverse).reverse

/-- models `from_coefs`, field_polynomial.rs:77-81 -/
def fromCoefs (l : List F) : List F := trim l

/-- models `zero`, field_polynomial.rs:35-37 -/
def zeroPoly : List F := fromCoefs [0]

/-- models `one`, field_polynomial.rs:51-53 -/
def onePoly : List F := fromCoefs [1]

omit [Field F] [DecidableEq F] in
/-- models `degree`, field_polynomial.rs:157-163 -/
def degree (l : List F) : Nat := if l.length = 0 then 0 else l.length - 1

/-- models `is_zero`, field_polynomial.rs:176-178; indexing an empty vector panics -/
def isZero (l : List F) : Res Bool :=
  if degree l = 0 then
    match l with
    | [] => .panic
    | a :: _ => .ok (decide (a = 0))
  else .ok false

omit [DecidableEq F] in
/-- the loop of `eval`: result and power so far -/
def evalLoop (x : F) : List F → F → F → F
  | [], result, _ => result
  | c :: l, result, power => evalLoop x l (result + power * c) (power * x)

omit [DecidableEq F] in
/-- models `eval`, field_polynomial.rs:181-192 -/
def eval (l : List F) (x : F) : F := evalLoop x l 0 1

omit [DecidableEq F] in
/-- the zipped loop followed by the loop over the rest of `other`, field_polynomial.rs:196-204 -/
def addRaw : List F → List F → List F
  | a :: l, b :: m => (a + b) :: addRaw l m
  | l, [] => l
  | [], m => m

/-- models `add_assign`, `add`, field_polynomial.rs:195-230 -/
def add (p q : List F) : List F := trim (addRaw p q)

omit [DecidableEq F] in
/-- the two loops of `sub_assign`, field_polynomial.rs:262-270 -/
def subRaw : List F → List F → List F
  | a :: l, b :: m => (a - b) :: subRaw l m
  | l, [] => l
  | [], m => m.map fun x => -x

/-- models `sub_assign`, `sub`, field_polynomial.rs:261-294 -/
def sub (p q : List F) : List F := trim (subRaw p q)

/-- models `mul_scalar_assign`, `mul_scalar`, field_polynomial.rs:381-406 -/
def mulScalar (p : List F) (s : F) : List F := trim (p.map fun c => c * s)

/-- models `neg_assign`, `neg`, field_polynomial.rs:310-333 -/
def neg (p : List F) : List F := mulScalar p (-1)

omit [DecidableEq F] in
/-- the loop of `mul_var_assign` -/
def mulVarLoop (s : F) : List F → F → List F
  | [], _ => []
  | c :: l, r => c * r :: mulVarLoop s l (r * s)

/-- models `mul_var_assign`, `mul_var`, field_polynomial.rs:424-452 -/
def mulVar (p : List F) (s : F) : List F := trim (mulVarLoop s p 1)

/-- models `add_coef_assign`, field_polynomial.rs:356-362: zeros are pushed while the degree is below `order`; indexing beyond
the end panics, which happens for an empty vector and `order = 0` -/
def addCoef (p : List F) (coef : F) (order : Nat) : Res (List F) :=
  let n := p.length
  -- an empty vector has degree 0, as a vector of one coefficient: the loop pushes until `len = order + 1`, or not at all
  let p' := if degree p < order then p ++ List.replicate (order + 1 - n) 0 else p
  match p'[order]? with
  | none => .panic
  | some c => .ok (trim (p'.set order (c + coef)))

/-- one round of the loop of `from_zeroes_ref`, field_polynomial.rs:109-114 -/
def zeroesStep (r : List F) (root : F) : List F := sub (0 :: r) (mulScalar r root)

/-- models `from_zeroes`, `from_zeroes_ref`, field_polynomial.rs:101-117 -/
def fromZeroes (zeroes : List F) : List F := trim (zeroes.foldl zeroesStep onePoly)

omit [DecidableEq F] in
/-- the inner loop of `div_rem`, field_polynomial.rs:483-487: `rem[i + j] -= qi * divisor[j]`; an index out of bounds panics -/
def subAt (rem : List F) (i : Nat) (qi : F) : List F → Res (List F)
  | [] => .ok rem
  | d :: ds => match rem[i]? with
    | none => .panic
    | some c => subAt (rem.set i (c - qi * d)) (i + 1) qi ds

omit [DecidableEq F] in
/-- the outer loop of `div_rem`, field_polynomial.rs:480-489, for `i` from `n - 1` down to `0` -/
def divLoop (divisor : List F) (blInv : F) : Nat → List F → List F → Res (List F × List F)
  | 0, quo, rem => .ok (quo, rem)
  | i + 1, quo, rem =>
    match rem[i + divisor.length - 1]? with
    | none => .panic
    | some c => do
      let rem ← subAt rem i (blInv * c) divisor
      if i < quo.length then divLoop divisor blInv i (quo.set i (blInv * c)) rem else .panic

/-- models `div_rem`, field_polynomial.rs:470-501.  `last().unwrap()` panics for an empty divisor, `inv().unwrap()` for a zero
last coefficient. -/
def divRem (p divisor : List F) : Res (List F × List F) :=
  let k := p.length
  let l := divisor.length
  if l > k then .ok (zeroPoly, p)
  else match divisor.getLast? with
    | none => .panic
    | some b =>
      if b = 0 then .panic
      else do
        let r ← divLoop divisor b⁻¹ (k - l + 1) (List.replicate (k - l + 1) 0) p
        let rem := r.2.take (r.2.length - (k - l + 1))
        let rem := if rem.isEmpty then [0] else rem
        pure (trim (fromCoefs r.1), trim (fromCoefs rem))

end
end Verif.Poly
