import Mathlib.Data.Nat.Digits.Defs
import Mathlib.Algebra.Field.ZMod
import Mathlib.Tactic.Ring
import Mathlib.Tactic.NormNum.Prime
import Verif.Res

/-!
C30: exponentiation of a scalar by a little-endian list of 64-bit limbs.
-/

namespace Verif.Pow

variable {F : Type} [Monoid F]

/-! ### Model -/

/-- `n` rounds of the inner loop of algebra/src/traits.rs:97-103: returns `(base, result)` -/
def powBits : Nat → Nat → F × F → F × F
  | 0, _, st => st
  | n + 1, e, (base, result) =>
    let result := if e % 2 = 1 then result * base else result
    powBits n (e >>> 1) (base * base, result)

/-- models the default `Scalar::pow`, algebra/src/traits.rs:91-106 (used by the Ristretto and Jubjub scalars) -/
def pow (x : F) (exponent : List Nat) : F :=
  (exponent.foldl (fun st e => powBits 64 e st) (x, 1)).2

/-- models the overriding `pow` of algebra/src/bls12_381.rs:328-333 (`width = 4`), algebra/src/secp256k1.rs:292-297 and
algebra/src/secq256k1.rs:269-274 (`width = 5`): `array[..len]` panics when the exponent has more limbs than the array.
`arkPow` stands for the exponentiation of arkworks. -/
def powArray (arkPow : F → List Nat → F) (width : Nat) (x : F) (exponent : List Nat) : Res F :=
  if exponent.length ≤ width then
    .ok (arkPow x (exponent ++ List.replicate (width - exponent.length) 0))
  else .panic

/-! ### Properties -/

theorem powBits_eq (n e : Nat) (b r : F) :
    powBits n e (b, r) = (b ^ 2 ^ n, r * b ^ (e % 2 ^ n)) := by
  induction n generalizing e b r with
  | zero => simp [powBits, Nat.mod_one]
  | succ n ih =>
    simp only [powBits, ih, Nat.shiftRight_one]
    have h1 : (b * b) ^ 2 ^ n = b ^ 2 ^ (n + 1) := by rw [← pow_two, ← pow_mul, pow_succ']
    have hm : e % 2 ^ (n + 1) = e % 2 + 2 * (e / 2 % 2 ^ n) := by rw [pow_succ', Nat.mod_mul]
    have h2 : (b * b) ^ (e / 2 % 2 ^ n) = b ^ (2 * (e / 2 % 2 ^ n)) := by rw [← pow_two, ← pow_mul]
    rw [h1, h2, hm]
    split
    · next h => rw [h, pow_add b 1, pow_one, mul_assoc]
    · next h => rw [show e % 2 = 0 by omega, Nat.zero_add]

/-- C30: the default `pow` raises the base to the integer the limbs represent, for every base of every monoid and every
list of 64-bit limbs, of any length. -/
theorem C30_pow (x : F) (exponent : List Nat) (h : ∀ e ∈ exponent, e < 2 ^ 64) :
    pow x exponent = x ^ Nat.ofDigits (2 ^ 64) exponent := by
  suffices H : ∀ (l : List Nat) (b r : F), (∀ e ∈ l, e < 2 ^ 64) →
      (l.foldl (fun st e => powBits 64 e st) (b, r)).2 = r * b ^ Nat.ofDigits (2 ^ 64) l by
    simpa [pow] using H exponent x 1 h
  intro l
  induction l with
  | nil => intro b r _; simp
  | cons e l ih =>
    intro b r hl
    rw [List.foldl_cons, powBits_eq, ih _ _ (fun e he => hl e (List.mem_cons_of_mem _ he)),
      Nat.mod_eq_of_lt (hl e List.mem_cons_self), Nat.ofDigits_cons, pow_add, ← pow_mul, mul_assoc]

/-- the limbs `[3, 1]` are a genuine multi-limb exponent: `2^64 + 3 = 67 (mod 96)`, and `5^96 = 1` modulo `97` -/
example : pow (5 : ZMod 97) [3, 1] = 5 ^ 67 := by decide +kernel

/-- C30 for the overriding implementations: with at most `width` limbs they compute the power, given that arkworks does.
Missing for the full claim: longer limb lists, see `C30_long_exponent_panics`. -/
theorem C30_pow_array_partial (arkPow : F → List Nat → F) (hark : ∀ x l, arkPow x l = x ^ Nat.ofDigits (2 ^ 64) l)
    (width : Nat) (x : F) (exponent : List Nat) (h : exponent.length ≤ width) :
    powArray arkPow width x exponent = .ok (x ^ Nat.ofDigits (2 ^ 64) exponent) := by
  rw [powArray, if_pos h, hark, Nat.ofDigits_append]
  have : ∀ n, Nat.ofDigits (2 ^ 64) (List.replicate n 0) = 0 := by
    intro n
    induction n with
    | zero => rfl
    | succ n ih => rw [List.replicate_succ, Nat.ofDigits_cons, ih]; simp
  rw [this]; simp

/-- C30 is violated by the overriding implementations: an exponent with more limbs than the array panics, even when its
high limbs are zero. -/
theorem C30_long_exponent_panics (arkPow : F → List Nat → F) (width : Nat) (x : F) (exponent : List Nat) :
    powArray arkPow width x exponent = .panic ↔ width < exponent.length := by
  unfold powArray
  split <;> simp_all

example : powArray (fun (x : ZMod 97) l => x ^ Nat.ofDigits (2 ^ 64) l) 4 5 [1, 0, 0, 0, 0] = .panic := by decide +kernel

end Verif.Pow
