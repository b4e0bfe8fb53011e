import Mathlib.Data.Nat.Digits.Defs
import Mathlib.Data.Nat.Digits.Lemmas
import Mathlib.Data.Nat.ModEq
import Mathlib.Tactic.Ring
import Mathlib.Tactic.Linarith
import Mathlib.Tactic.Zify
import Mathlib.Tactic.LinearCombination

/-!
C31: recoding of a scalar into signed digits of radix `2^w`.
-/

namespace Verif.Radix

/-! ### Model -/

/-- `x << s` on a `u64` -/
def shl64 (x s : Nat) : Nat := (x <<< s) % 2 ^ 64

/-- `as i8` -/
def toI8 (x : Int) : Int := (x + 128) % 256 - 128

/-- the window read at bit `bitIdx` of the limb `limb`, algebra/src/traits.rs:226-236; `next` is the following limb,
`none` when `is_last` holds -/
def window (w bitIdx limb : Nat) (next : Option Nat) : Nat :=
  match next with
  | none => limb >>> bitIdx
  | some n => if bitIdx < 64 - w then limb >>> bitIdx else (limb >>> bitIdx) ||| shl64 n (64 - bitIdx)

/-- models the loop of algebra/src/traits.rs:214-245, limited to `fuel` rounds (`none`: not finished yet) -/
def radixLoop (limbs : List Nat) (w : Nat) : Nat → Nat → Nat → Option (List Int)
  | 0, _, _ => none
  | fuel + 1, i, carry =>
    let bitOffset := i * w
    let idx := bitOffset / 64
    let bitIdx := bitOffset % 64
    match limbs[idx]? with
    | none => some [toI8 carry]
    | some limb =>
      let bitBuf := window w bitIdx limb limbs[idx + 1]?
      let coef := carry + (bitBuf &&& (2 ^ w - 1))
      let carry' := (coef + 2 ^ w / 2) >>> w
      match radixLoop limbs w fuel (i + 1) carry' with
      | none => none
      | some ds => some (toI8 ((coef : Int) - ((carry' <<< w : Nat) : Int)) :: ds)

/-- the loop of algebra/src/traits.rs:247-250 on the reversed vector -/
def popRev : List Int → List Int
  | d :: e :: ds => if d = 0 then popRev (e :: ds) else d :: e :: ds
  | l => l

/-- models algebra/src/traits.rs:200-252 for the scalar with the given limbs (`get_little_endian_u64`); `isZero` is the
comparison with zero.  `none`: the assertion `w <= 7` fails (a panic), or the loop has not ended after `fuel` rounds. -/
def scalarToRadix (fuel : Nat) (isZero : Bool) (limbs : List Nat) (w : Nat) : Option (List Int) :=
  if w ≤ 7 then
    if isZero then some [0]
    else (radixLoop limbs w fuel 0 0).map (fun ds => (popRev ds.reverse).reverse)
  else none

/-! ### Specification -/

/-- the integer with the given signed digits in radix `2^w`, least significant first -/
def digitsVal (w : Nat) : List Int → Int
  | [] => 0
  | d :: ds => d + 2 ^ w * digitsVal w ds

/-! ### Lemmas -/

theorem window_spec (w b limb : Nat) (next : Option Nat) (rest : Nat) (hw : w ≤ 7) (hb : b < 64) (hl : limb < 2 ^ 64)
    (hrest : match next with
      | none => rest = 0
      | some n => ∃ r, rest = n + 2 ^ 64 * r) :
    window w b limb next % 2 ^ w = (limb + 2 ^ 64 * rest) / 2 ^ b % 2 ^ w := by
  have h64 : (2 : Nat) ^ 64 = 2 ^ b * 2 ^ (64 - b) := by rw [← pow_add]; congr 1; omega
  have hdiv : (limb + 2 ^ 64 * rest) / 2 ^ b = limb / 2 ^ b + 2 ^ (64 - b) * rest := by
    rw [h64, mul_assoc, Nat.add_mul_div_left _ _ (by positivity)]
  rw [hdiv]
  cases next with
  | none =>
    simp only at hrest
    subst hrest
    simp [window, Nat.shiftRight_eq_div_pow]
  | some n =>
    obtain ⟨r, rfl⟩ := hrest
    simp only [window, Nat.shiftRight_eq_div_pow]
    split
    · next hlt =>
      obtain ⟨k, hk⟩ := Nat.exists_eq_add_of_le (show w ≤ 64 - b by omega)
      rw [hk, pow_add, mul_assoc, Nat.add_mul_mod_self_left]
    · next hge =>
      have hsh : shl64 n (64 - b) = (n % 2 ^ b) <<< (64 - b) := by
        rw [shl64, Nat.shiftLeft_eq, Nat.shiftLeft_eq, h64, Nat.mul_mod_mul_right]
      have hlt : limb / 2 ^ b < 2 ^ (64 - b) := by
        rw [Nat.div_lt_iff_lt_mul (by positivity), mul_comm, ← h64]; exact hl
      rw [hsh, Nat.or_comm, ← Nat.shiftLeft_add_eq_or_of_lt hlt, Nat.shiftLeft_eq]
      have e1 : n % 2 ^ b * 2 ^ (64 - b) ≡ 2 ^ (64 - b) * (n + 2 ^ 64 * r) [MOD 2 ^ w] := by
        have hd : (2 : Nat) ^ w ∣ 2 ^ 64 := pow_dvd_pow _ (by omega)
        refine Nat.ModEq.of_dvd hd ?_
        have a1 : n % 2 ^ b * 2 ^ (64 - b) ≡ n * 2 ^ (64 - b) [MOD 2 ^ 64] := by
          rw [h64]; exact Nat.ModEq.mul_right' _ (Nat.mod_modEq n (2 ^ b))
        refine a1.trans ?_
        rw [Nat.mul_comm n, mul_add]
        have : 2 ^ (64 - b) * (2 ^ 64 * r) = 2 ^ 64 * (2 ^ (64 - b) * r) := by ring
        rw [this]
        exact (Nat.add_mul_mod_self_left _ _ _).symm
      rw [Nat.add_comm]
      exact Nat.ModEq.add_left _ e1

theorem ofDigits_div (limbs : List Nat) (h : ∀ d ∈ limbs, d < 2 ^ 64) (u : Nat) :
    Nat.ofDigits (2 ^ 64) limbs / 2 ^ (64 * u) = Nat.ofDigits (2 ^ 64) (limbs.drop u) := by
  induction u generalizing limbs with
  | zero => simp
  | succ u ih =>
    cases limbs with
    | nil => simp
    | cons d ds =>
      rw [show 64 * (u + 1) = 64 + 64 * u by ring, pow_add, ← Nat.div_div_eq_div_mul, Nat.ofDigits_cons, List.drop_succ_cons,
        ← ih ds (fun d hd => h d (List.mem_cons_of_mem _ hd))]
      congr 1
      rw [Nat.add_mul_div_left _ _ (by norm_num), Nat.div_eq_of_lt (h d List.mem_cons_self), Nat.zero_add]

theorem read_spec (limbs : List Nat) (h : ∀ d ∈ limbs, d < 2 ^ 64) (w i limb : Nat) (hw : w ≤ 7)
    (hl : limbs[i * w / 64]? = some limb) :
    window w (i * w % 64) limb limbs[i * w / 64 + 1]? % 2 ^ w = Nat.ofDigits (2 ^ 64) limbs / 2 ^ (w * i) % 2 ^ w := by
  have hwi : w * i = 64 * (i * w / 64) + i * w % 64 := by rw [mul_comm w i]; exact (Nat.div_add_mod (i * w) 64).symm
  rw [hwi, pow_add, ← Nat.div_div_eq_div_mul, ofDigits_div limbs h]
  generalize i * w / 64 = u at hl
  have hb : i * w % 64 < 64 := Nat.mod_lt _ (by norm_num)
  generalize i * w % 64 = b at hb
  obtain ⟨hu, rfl⟩ := List.getElem?_eq_some_iff.mp hl
  rw [List.drop_eq_getElem_cons hu, Nat.ofDigits_cons]
  refine window_spec w b _ _ _ hw hb (h _ (List.getElem_mem hu)) ?_
  cases hn : limbs[u + 1]? with
  | none =>
    simp only
    rw [List.drop_eq_nil_of_le (List.getElem?_eq_none_iff.mp hn)]; rfl
  | some n =>
    simp only
    obtain ⟨hu', rfl⟩ := List.getElem?_eq_some_iff.mp hn
    exact ⟨Nat.ofDigits (2 ^ 64) (limbs.drop (u + 1 + 1)), by rw [List.drop_eq_getElem_cons hu', Nat.ofDigits_cons]⟩

theorem carry_spec (w c m : Nat) (hw1 : 1 ≤ w) (hw : w ≤ 7) (hc : c ≤ 1) (hm : m < 2 ^ w) :
    (c + m + 2 ^ w / 2) >>> w ≤ 1 ∧
      -(2 ^ (w - 1) : Int) ≤ ((c + m : Nat) : Int) - (((c + m + 2 ^ w / 2) >>> w <<< w : Nat) : Int) ∧
      ((c + m : Nat) : Int) - (((c + m + 2 ^ w / 2) >>> w <<< w : Nat) : Int) ≤ (2 ^ (w - 1) : Int) := by
  rw [Nat.shiftRight_eq_div_pow, Nat.shiftLeft_eq]
  obtain ⟨k, rfl⟩ := Nat.exists_eq_add_of_le hw1
  have e : (2 : Nat) ^ (1 + k) = 2 * 2 ^ k := by rw [pow_add, pow_one]
  have ek : 1 + k - 1 = k := by omega
  rw [e] at hm ⊢
  rw [ek]
  clear e ek hw hw1
  have hp : 0 < 2 ^ k := by positivity
  have hcast : ((2 : Int) ^ k) = ((2 ^ k : Nat) : Int) := by push_cast; rfl
  rw [hcast]
  generalize 2 ^ k = t at *
  have h2 : 2 * t / 2 = t := by omega
  rw [h2]
  have hdm := Nat.div_add_mod (c + m + t) (2 * t)
  have hml := Nat.mod_lt (c + m + t) (show 2 * t > 0 by omega)
  generalize (c + m + t) / (2 * t) = q at *
  generalize (c + m + t) % (2 * t) = r at *
  have hq : q ≤ 1 := by
    by_contra hq
    have : 2 ≤ q := by omega
    have : 2 * t * 2 ≤ 2 * t * q := Nat.mul_le_mul_left _ this
    omega
  have hq' : q = 0 ∨ q = 1 := by omega
  refine ⟨hq, ?_, ?_⟩ <;> rcases hq' with rfl | rfl <;> push_cast <;> omega

theorem toI8_id (x : Int) (h1 : -64 ≤ x) (h2 : x ≤ 64) : toI8 x = x := by unfold toI8; omega

theorem half_le (w : Nat) (hw : w ≤ 7) : (2 : Int) ^ (w - 1) ≤ 64 := by
  calc (2 : Int) ^ (w - 1) ≤ 2 ^ 6 := pow_le_pow_right₀ (by norm_num) (by omega)
    _ = 64 := by norm_num

theorem loop_spec (limbs : List Nat) (h : ∀ d ∈ limbs, d < 2 ^ 64) (w : Nat) (hw1 : 1 ≤ w) (hw : w ≤ 7) :
    ∀ fuel i c ds, c ≤ 1 → radixLoop limbs w fuel i c = some ds →
      digitsVal w ds = (Nat.ofDigits (2 ^ 64) limbs / 2 ^ (w * i) : Nat) + (c : Int) ∧
      (∀ d ∈ ds, -(2 ^ (w - 1) : Int) ≤ d ∧ d ≤ 2 ^ (w - 1)) ∧ ds ≠ [] := by
  intro fuel
  induction fuel with
  | zero => intro i c ds _ hr; exact absurd hr (by simp [radixLoop])
  | succ fuel ih =>
    intro i c ds hc hr
    simp only [radixLoop] at hr
    have hhalf := half_le w hw
    have hone : (1 : Int) ≤ 2 ^ (w - 1) := one_le_pow₀ (by norm_num)
    cases hl : limbs[i * w / 64]? with
    | none =>
      rw [hl] at hr
      simp only [Option.some.injEq] at hr
      subst hr
      have hlen := List.getElem?_eq_none_iff.mp hl
      have hz : Nat.ofDigits (2 ^ 64) limbs / 2 ^ (w * i) = 0 := by
        refine Nat.div_eq_of_lt ?_
        have := Nat.ofDigits_lt_base_pow_length (b := 2 ^ 64) (l := limbs) (by norm_num) h
        refine lt_of_lt_of_le this ?_
        rw [← pow_mul]
        refine Nat.pow_le_pow_right (by norm_num) ?_
        have := Nat.div_mul_le_self (i * w) 64
        rw [mul_comm w i]
        omega
      have hci : toI8 (c : Int) = c := toI8_id _ (by omega) (by omega)
      rw [hz, hci]
      refine ⟨by simp [digitsVal], ?_, by simp⟩
      intro d hd
      simp only [List.mem_singleton] at hd
      subst hd
      constructor <;> omega
    | some limb =>
      rw [hl] at hr
      simp only at hr
      have hrd := read_spec limbs h w i limb hw hl
      rw [Nat.and_two_pow_sub_one_eq_mod, hrd] at hr
      generalize hn : Nat.ofDigits (2 ^ 64) limbs / 2 ^ (w * i) = n at hr
      have hm : n % 2 ^ w < 2 ^ w := Nat.mod_lt _ (by positivity)
      obtain ⟨hc', hd1, hd2⟩ := carry_spec w c (n % 2 ^ w) hw1 hw hc hm
      generalize hcar : (c + n % 2 ^ w + 2 ^ w / 2) >>> w = c' at hr hc' hd1 hd2
      cases hrec : radixLoop limbs w fuel (i + 1) c' with
      | none => rw [hrec] at hr; exact absurd hr (by simp)
      | some es =>
        rw [hrec] at hr
        simp only [Option.some.injEq] at hr
        subst hr
        obtain ⟨iv, ib, ine⟩ := ih (i + 1) c' es hc' hrec
        rw [toI8_id _ (by omega) (by omega)]
        refine ⟨?_, ?_, by simp⟩
        · simp only [digitsVal]
          rw [iv, show w * (i + 1) = w * i + w by ring, pow_add, ← Nat.div_div_eq_div_mul, hn, Nat.shiftLeft_eq]
          have := Nat.div_add_mod n (2 ^ w)
          zify at this ⊢
          linear_combination this
        · intro d hd
          rcases List.mem_cons.mp hd with rfl | hd
          · exact ⟨hd1, hd2⟩
          · exact ib d hd

theorem loop_ends (limbs : List Nat) (w : Nat) :
    ∀ fuel i c, 64 * limbs.length < (i + fuel) * w → 64 * limbs.length ≤ (i + (fuel - 1)) * w → 1 ≤ fuel →
      ∃ ds, radixLoop limbs w fuel i c = some ds := by
  intro fuel
  induction fuel with
  | zero => intro i c _ _ h; omega
  | succ fuel ih =>
    intro i c _ h2 _
    simp only [radixLoop]
    cases hl : limbs[i * w / 64]? with
    | none => exact ⟨_, rfl⟩
    | some limb =>
      simp only
      have hlt : i * w / 64 < limbs.length := (List.getElem?_eq_some_iff.mp hl).1
      have hlt' : i * w < 64 * limbs.length := by omega
      have hf : 1 ≤ fuel := by
        rcases Nat.eq_zero_or_pos fuel with rfl | hf
        · simp only [Nat.zero_add, Nat.sub_self, Nat.add_zero] at h2
          omega
        · exact hf
      obtain ⟨k, rfl⟩ := Nat.exists_eq_add_of_le hf
      have hw0 : 0 < w := by
        rcases Nat.eq_zero_or_pos w with rfl | hw
        · simp only [Nat.mul_zero] at h2 hlt'; omega
        · exact hw
      have e1 : 1 + k + 1 - 1 = 1 + k := by omega
      rw [e1] at h2
      have : (i + 1 + (1 + k)) * w = (i + (1 + k)) * w + w := by ring
      obtain ⟨ds', hds'⟩ := ih (i + 1)
        ((c + (window w (i * w % 64) limb limbs[i * w / 64 + 1]? &&& (2 ^ w - 1)) + 2 ^ w / 2) >>> w)
        (by omega) (by
          have : i + 1 + (1 + k - 1) = i + (1 + k) := by omega
          rw [this]; exact h2) (by omega)
      exact ⟨_, by rw [hds']⟩

theorem digitsVal_append (w : Nat) (a b : List Int) :
    digitsVal w (a ++ b) = digitsVal w a + 2 ^ (w * a.length) * digitsVal w b := by
  induction a with
  | nil => simp [digitsVal]
  | cons d a ih => simp only [List.cons_append, digitsVal, ih, List.length_cons]; ring

theorem popRev_spec (w : Nat) (l : List Int) (hl : l ≠ []) :
    digitsVal w (popRev l).reverse = digitsVal w l.reverse ∧ (∀ d ∈ popRev l, d ∈ l) ∧ popRev l ≠ [] ∧
      (1 < (popRev l).length → (popRev l).head? ≠ some 0) := by
  induction l with
  | nil => exact absurd rfl hl
  | cons d l ih =>
    cases l with
    | nil => simp [popRev]
    | cons e ds =>
      simp only [popRev]
      split
      · next h0 =>
        subst h0
        obtain ⟨i1, i2, i3, i4⟩ := ih (by simp)
        refine ⟨?_, fun d hd => List.mem_cons_of_mem _ (i2 d hd), i3, i4⟩
        rw [i1, List.reverse_cons (as := e :: ds), digitsVal_append]
        simp [digitsVal]
      · next h0 => exact ⟨rfl, fun d hd => hd, by simp, fun _ => by simpa using h0⟩

/-! ### Properties -/

/-- C31: for every window size from one to seven the recoding ends with digits that sum back to the scalar, lie in
`[-2^(w-1), 2^(w-1)]`, and have no leading zero unless there is only one digit. -/
theorem C31_digits (limbs : List Nat) (h : ∀ d ∈ limbs, d < 2 ^ 64) (w : Nat) (hw1 : 1 ≤ w) (hw : w ≤ 7)
    (isZero : Bool) (hz : isZero = true ↔ Nat.ofDigits (2 ^ 64) limbs = 0) :
    ∃ N, ∀ fuel, N ≤ fuel → ∃ ds, scalarToRadix fuel isZero limbs w = some ds ∧
      digitsVal w ds = (Nat.ofDigits (2 ^ 64) limbs : Nat) ∧
      (∀ d ∈ ds, -(2 ^ (w - 1) : Int) ≤ d ∧ d ≤ 2 ^ (w - 1)) ∧
      ds ≠ [] ∧ (1 < ds.length → ds.getLast? ≠ some 0) := by
  refine ⟨64 * limbs.length + 1, fun fuel hf => ?_⟩
  cases hzb : isZero with
  | true =>
    refine ⟨[0], by simp [scalarToRadix, hw], ?_, ?_, by simp, by simp⟩
    · rw [hz.mp hzb]; simp [digitsVal]
    · intro d hd
      simp only [List.mem_singleton] at hd
      subst hd
      have : (0 : Int) < 2 ^ (w - 1) := by positivity
      constructor <;> omega
  | false =>
    have key : 64 * limbs.length ≤ (fuel - 1) * w := by
      calc 64 * limbs.length ≤ fuel - 1 := by omega
        _ = (fuel - 1) * 1 := (Nat.mul_one _).symm
        _ ≤ (fuel - 1) * w := Nat.mul_le_mul_left _ hw1
    have key2 : (fuel - 1) * w + w = fuel * w := by
      obtain ⟨k, rfl⟩ := Nat.exists_eq_add_of_le (show 1 ≤ fuel by omega)
      rw [Nat.add_sub_cancel_left]; ring
    obtain ⟨ds, hds⟩ := loop_ends limbs w fuel 0 0 (by rw [Nat.zero_add]; omega) (by rw [Nat.zero_add]; exact key) (by omega)
    obtain ⟨sv, sb, sne⟩ := loop_spec limbs h w hw1 hw fuel 0 0 ds (by omega) hds
    obtain ⟨p1, p2, p3, p4⟩ := popRev_spec w ds.reverse (by simpa using sne)
    refine ⟨(popRev ds.reverse).reverse, by simp [scalarToRadix, hw, hds], ?_, ?_, by simpa using p3, ?_⟩
    · rw [p1, List.reverse_reverse, sv]; simp
    · intro d hd
      exact sb d (by simpa using p2 d (by simpa using hd))
    · rw [List.length_reverse, List.getLast?_reverse]; exact p4

/-- C31: zero gives the single digit zero, whatever the window size. -/
theorem C31_zero (fuel : Nat) (limbs : List Nat) (w : Nat) (hw : w ≤ 7) :
    scalarToRadix fuel true limbs w = some [0] := by simp [scalarToRadix, hw]

/-- C31: above seven the assertion fails. -/
theorem C31_window_limit (fuel : Nat) (z : Bool) (limbs : List Nat) (w : Nat) (hw : 7 < w) :
    scalarToRadix fuel z limbs w = none := by
  rw [scalarToRadix, if_neg (by omega)]

/-- C31: the window size zero passes the assertion, but then the loop never ends on a nonzero scalar (with at least one
limb): no number of rounds suffices. -/
theorem C31_window_zero_diverges (fuel : Nat) (d : Nat) (limbs : List Nat) :
    scalarToRadix fuel false (d :: limbs) 0 = none := by
  have : ∀ fuel i c, radixLoop (d :: limbs) 0 fuel i c = none := by
    intro fuel
    induction fuel with
    | zero => intro i c; rfl
    | succ fuel ih => intro i c; simp [radixLoop, ih]
  simp [scalarToRadix, this]

/-- a two-limb scalar with a window crossing the limb boundary -/
example : scalarToRadix 200 false [2 ^ 64 - 3, 5] 6 = some [-3, 0, 0, 0, 0, 0, 0, 0, 0, 0, -32, 2] := by decide +kernel

end Verif.Radix
