import Mathlib.Tactic.Module
import Verif.Poly.KzgProps
import Verif.Snark.Model

/-!
C60: the helper functions of the PLONK prover and verifier.
-/

namespace Verif.Snark

open Verif.Poly Verif.Plonk Polynomial
open Verif.AnonCreds (Pairing)

/-! ### Loops that neither fail nor panic -/

theorem mapM_ok {α β : Type} (f : α → Res β) (g : α → β) : ∀ l : List α, (∀ x ∈ l, f x = .ok (g x)) → l.mapM f = .ok (l.map g)
  | [], _ => by simp
  | a :: l, h => by
    rw [List.mapM_cons, h a (by simp), Res.bind_ok, mapM_ok f g l (fun x hx => h x (by simp [hx])), Res.bind_ok]
    rfl

theorem foldlM_ok {α β : Type} (f : β → α → Res β) (g : β → α → β) : ∀ (l : List α) (b : β),
    (∀ x ∈ l, ∀ b, f b x = .ok (g b x)) → l.foldlM f b = .ok (l.foldl g b)
  | [], b, _ => by simp
  | a :: l, b, h => by
    rw [List.foldlM_cons, h a (by simp), Res.bind_ok, foldlM_ok f g l _ (fun x hx => h x (by simp [hx]))]
    rfl

theorem index_ok {α : Type} {l : List α} {i : Nat} {a : α} (h : l[i]? = some a) : index l i = .ok a := by
  rw [index, h]; rfl

theorem index_range {α : Type} (f : Nat → α) {n i : Nat} (h : i < n) : index ((List.range n).map f) i = .ok (f i) := by
  apply index_ok
  rw [List.getElem?_map, List.getElem?_range h]; rfl

variable {F G1 G2 Gt : Type} [Field F] [DecidableEq F] [AddCommGroup G1] [Module F G1] [AddCommGroup G2] [Module F G2]
  [AddCommGroup Gt] [Module F Gt] [DecidableEq Gt]

theorem foldl_mul_range (f : Nat → F) : ∀ (n : Nat) (a : F), (List.range n).foldl (fun t j => t * f j) a = a * ∏ j ∈ Finset.range n, f j
  | 0, a => by simp
  | n + 1, a => by
    rw [List.range_succ, List.foldl_append, foldl_mul_range f n a, Finset.prod_range_succ]
    simp [mul_assoc]

/-! ### The group -/

theorem buildGroupLoop_eq (g : F) (n : Nat) (hr : IsPrimitiveRoot g n) : ∀ left i, i + left + 1 = n →
    buildGroupLoop g left (g ^ (i + 1)) ((List.range (i + 1)).map fun j => g ^ j) = .ok ((List.range n).map fun j => g ^ j)
  | 0, i, h => by
    have : i + 1 = n := by omega
    subst this
    rw [buildGroupLoop, if_pos hr.pow_eq_one]
  | left + 1, i, h => by
    have hne : g ^ (i + 1) ≠ 1 := by
      intro h1
      have := Nat.le_of_dvd (by omega) (hr.dvd_of_pow_eq_one _ h1)
      omega
    rw [buildGroupLoop, if_neg hne, ← pow_succ]
    have := buildGroupLoop_eq g n hr left (i + 1) (by omega)
    rw [List.range_succ, List.map_append] at this
    exact this

/-- C60: from a primitive `n`-th root of unity `build_group` lists the `n` different powers in order. -/
theorem C60_build_group (g : F) (n : Nat) (hn : 0 < n) (hr : IsPrimitiveRoot g n) :
    buildGroup g n = .ok ((List.range n).map fun i => g ^ i) ∧ ((List.range n).map fun i => g ^ i).Nodup := by
  constructor
  · have := buildGroupLoop_eq g n hr (n - 1) 0 (by omega)
    simpa [buildGroup] using this
  · rw [List.nodup_map_iff_inj_on List.nodup_range]
    intro a ha b hb h
    exact hr.pow_inj (List.mem_range.1 ha) (List.mem_range.1 hb) h

/-- C60: a generator whose order is larger than the maximum is refused. -/
theorem C60_build_group_too_large (g : F) (n : Nat) (hn : 0 < n) (h : ∀ i, 0 < i → i ≤ n → g ^ i ≠ 1) :
    buildGroup g n = .err := by
  have key : ∀ left i elems, i + left = n → 0 < i → buildGroupLoop g left (g ^ i) elems = .err := by
    intro left
    induction left with
    | zero =>
      intro i elems h1 h2
      rw [buildGroupLoop, if_neg (h i h2 (by omega))]
    | succ left ih =>
      intro i elems h1 h2
      rw [buildGroupLoop, if_neg (h i h2 (by omega)), ← pow_succ]
      exact ih (i + 1) _ (by omega) (by omega)
  have := key (n - 1) 1 [1] (by omega) (by omega)
  simpa [buildGroup] using this

/-! ### Hiding -/

theorem addCoef_ok (p : List F) (c : F) (i : Nat) (hp : p ≠ []) :
    ∃ q, addCoef p c i = .ok q ∧ Normal q ∧ toPoly q = toPoly p + C c * X ^ i ∧ q.length ≤ max p.length (i + 1) := by
  obtain ⟨q, h1, h2, h3⟩ := C57_add_coef p c i (Or.inl hp)
  refine ⟨q, h1, h3, h2, ?_⟩
  have hpl := List.length_pos_iff.2 hp
  have := normal_length_le h3 (n := max (p.length - 1) i) ?_
  · omega
  rw [h2]
  refine le_trans (natDegree_add_le _ _) (max_le_max ?_ (natDegree_C_mul_X_pow_le _ _))
  have := natDegree_lt_length hp
  omega

/-- C60: hiding adds `b(X) (1 - X^n)`, where the coefficients of `b` are the blinds; so the values at all `n`-th roots of unity
stay the same. -/
theorem C60_hide (blinds p : List F) (n : Nat) (hp : Normal p) :
    ∃ q, hidePolynomial blinds p n = .ok q ∧ Normal q ∧ q.length ≤ max p.length (n + blinds.length) ∧
      toPoly q = toPoly p + toPoly blinds * (1 - X ^ n) ∧
      ∀ x : F, x ^ n = 1 → (toPoly q).eval x = (toPoly p).eval x := by
  suffices H : ∀ (blinds p : List F) (i : Nat), Normal p → ∃ q, hideLoop n blinds i p = .ok q ∧ Normal q ∧
      q.length ≤ max p.length (n + i + blinds.length) ∧ toPoly q = toPoly p + X ^ i * toPoly blinds * (1 - X ^ n) by
    obtain ⟨q, h1, h2, h3, h4⟩ := H blinds p 0 hp
    rw [pow_zero, one_mul] at h4
    refine ⟨q, h1, h2, by simpa using h3, h4, fun x hx => ?_⟩
    rw [h4]
    simp [hx]
  intro blinds
  induction blinds with
  | nil => intro p i hp; exact ⟨p, rfl, hp, by simp, by simp [toPoly]⟩
  | cons b bs ih =>
    intro p i hp
    obtain ⟨q1, a1, a2, a3, a4⟩ := addCoef_ok p b i hp.1
    obtain ⟨q2, b1, b2, b3, b4⟩ := addCoef_ok q1 (-b) (n + i) a2.1
    obtain ⟨q, c1, c2, c3, c4⟩ := ih q2 (i + 1) b2
    refine ⟨q, ?_, c2, ?_, ?_⟩
    · rw [hideLoop, a1, Res.bind_ok, b1, Res.bind_ok, c1]
    · rw [List.length_cons]
      omega
    · rw [c4, b3, a3, toPoly, C_neg]
      ring

/-! ### Splitting the quotient -/

/-- `x = Σ aⁱ • lᵢ` for polynomials: the parts put together again -/
theorem toPoly_take_drop (l : List F) (n : Nat) : toPoly l = toPoly (l.take n) + X ^ n * toPoly (l.drop n) := by
  conv_lhs => rw [← List.take_append_drop n l]
  rw [toPoly_append]
  by_cases h : n ≤ l.length
  · rw [List.length_take, Nat.min_eq_left h]
  · rw [List.drop_eq_nil_of_le (by omega)]
    simp [toPoly]

theorem toPoly_resize (l : List F) (n : Nat) (h : l.length ≤ n) : toPoly (resize l n) = toPoly l := by
  rw [resize, List.take_of_length_le h, toPoly_append, toPoly_replicate, mul_zero, add_zero]

/-- one part that is not the last -/
theorem split_part (l : List F) (n : Nat) (rand prev : F) (hl : l.length ≤ n) (hn : 0 < n) :
    ∃ c, middlePart n rand prev l = .ok c ∧ c.length = n + 1 ∧ toPoly c = toPoly l + C rand * X ^ n - C prev := by
  have hlen := resize_length l (n + 1)
  have htp := toPoly_resize l (n + 1) (by omega)
  unfold middlePart
  generalize resize l (n + 1) = r at hlen htp
  have hlt : n < r.length := by omega
  have h0 : 0 < (r.set n (r[n] + rand)).length := by rw [List.length_set]; omega
  simp only [List.getElem?_eq_getElem hlt, List.getElem?_eq_getElem h0]
  refine ⟨_, rfl, by simp [hlen], ?_⟩
  rw [toPoly_set _ _ _ h0, toPoly_set _ _ _ hlt, htp]
  simp only [C_sub, C_add]
  ring

theorem splitLoop_eq (P : Pairing F G1 G2 Gt) (msm : List F → List G1 → Res G1) (hm : MsmCorrect msm) (d : Nat) (s : F) (t : List F)
    (parts n : Nat) (hn : 0 < n) (hd : n ≤ d) (ht : t.length ≤ (parts - 1) * n + (d + 1)) : ∀ (rands : List F) (i : Nat) (prev : F),
    i + rands.length = parts → rands ≠ [] →
    ∃ ps : List (List F), splitLoop msm (setup P d s) t parts n i rands prev =
        .ok (ps.map fun p => ((toPoly p).eval s • P.base1, p)) ∧ ps.length = rands.length ∧
      (∀ p ∈ ps, Normal p ∧ p.length ≤ max (n + 1) (t.length - (parts - 1) * n)) ∧
      ∀ x : F, combine (x ^ n) (ps.map fun p => (toPoly p).eval x) = (toPoly (t.drop (i * n))).eval x - prev
  | [], _, _, _, h => absurd rfl h
  | rand :: rands, i, prev, hi, _ => by
    rw [List.length_cons] at hi
    by_cases hlast : i = parts - 1
    · have hnil : rands = [] := by
        rw [← List.length_eq_zero_iff]; omega
      subst hnil
      have hc : ∃ c, lastPart prev (t.drop (i * n)) = c ∧ c ≠ [] ∧ c.length ≤ max 1 (t.length - i * n) ∧
          toPoly c = toPoly (t.drop (i * n)) - C prev := by
        have hl := List.length_drop (l := t) (i := i * n)
        cases hr : t.drop (i * n) with
        | nil => exact ⟨_, rfl, by simp [lastPart], by simp [lastPart], by simp [toPoly, lastPart]⟩
        | cons c cs =>
          rw [hr] at hl
          refine ⟨_, rfl, by simp [lastPart], ?_, ?_⟩
          · rw [lastPart, List.length_cons]; rw [List.length_cons] at hl; omega
          · rw [lastPart, toPoly, toPoly, C_sub]; ring
      obtain ⟨c, hc1, hc2, hc3, hc4⟩ := hc
      have hN : Normal (fromCoefs c) := normal_trim hc2
      have htp : toPoly (fromCoefs c) = toPoly (t.drop (i * n)) - C prev := by rw [tp_fromCoefs, hc4]
      have hlc : (fromCoefs c).length ≤ c.length := by
        obtain ⟨m, hm, -⟩ := trim_spec c
        have := congrArg List.length hm
        rw [List.length_append] at this
        show (trim c).length ≤ _
        omega
      refine ⟨[fromCoefs c], ?_, by simp, ?_, ?_⟩
      · rw [splitLoop]
        simp only [if_pos hlast]
        rw [hc1, Res.bind_ok, C59_commit P msm hm d s _ hN.1, if_pos (by rw [← hlast] at ht; omega), Res.bind_ok]
        simp [splitLoop]
      · intro p hp
        rw [List.mem_singleton] at hp
        subst hp
        refine ⟨hN, ?_⟩
        rw [hlast] at hc3
        omega
      · intro x
        simp [combine, htp]
    · have hne : rands ≠ [] := by
        intro h; subst h; simp at hi; omega
      have hl : ((t.drop (i * n)).take n).length ≤ n := by rw [List.length_take]; omega
      obtain ⟨c, hc1, hc2, hc3⟩ := split_part ((t.drop (i * n)).take n) n rand prev hl hn
      obtain ⟨ps, h1, h2, h3, h4⟩ := splitLoop_eq P msm hm d s t parts n hn hd ht rands (i + 1) rand (by omega) hne
      have hN : Normal (fromCoefs c) := normal_trim (by intro h; rw [h] at hc2; simp at hc2)
      have htp := (tp_fromCoefs c).trans hc3
      have hlc : (fromCoefs c).length ≤ n + 1 := by
        obtain ⟨m, hm, -⟩ := trim_spec c
        have := congrArg List.length hm
        rw [List.length_append] at this
        show (trim c).length ≤ _
        omega
      refine ⟨fromCoefs c :: ps, ?_, by simp [h2], ?_, ?_⟩
      · rw [splitLoop]
        simp only [if_neg hlast]
        rw [hc1, Res.bind_ok, C59_commit P msm hm d s _ hN.1, if_pos (by omega), Res.bind_ok, h1, Res.bind_ok]
        rfl
      · intro p hp
        rcases List.mem_cons.1 hp with rfl | hp
        · exact ⟨hN, by omega⟩
        · exact h3 p hp
      · intro x
        have hcons : combine (x ^ n) ((fromCoefs c :: ps).map fun p => (toPoly p).eval x) =
            (toPoly (fromCoefs c)).eval x + x ^ n * combine (x ^ n) (ps.map fun p => (toPoly p).eval x) := by
          simp [combine]
        rw [hcons, h4 x, htp, toPoly_take_drop (t.drop (i * n)) n, List.drop_drop, show i * n + n = (i + 1) * n by ring]
        simp
        ring

/-- C60: the parts of the quotient recombine to the quotient for all random values: `Σ xⁱⁿ tᵢ(x) = t(x)` for every `x`; every
part but the last has at most `n + 1` coefficients and the last has what remains. -/
theorem C60_split (P : Pairing F G1 G2 Gt) (msm : List F → List G1 → Res G1) (hm : MsmCorrect msm) (d : Nat) (s : F) (t rands : List F)
    (n : Nat) (hn : 0 < n) (hd : n ≤ d) (hr : rands ≠ []) (ht : t.length ≤ (rands.length - 1) * n + (d + 1)) :
    ∃ ps : List (List F), splitT msm (setup P d s) t n rands = .ok (ps.map fun p => ((toPoly p).eval s • P.base1, p)) ∧
      ps.length = rands.length ∧ (∀ p ∈ ps, Normal p ∧ p.length ≤ max (n + 1) (t.length - (rands.length - 1) * n)) ∧
      ∀ x : F, combine (x ^ n) (ps.map fun p => (toPoly p).eval x) = (toPoly t).eval x := by
  obtain ⟨ps, h1, h2, h3, h4⟩ := splitLoop_eq P msm hm d s t rands.length n hn hd ht rands 0 0 (by simp) hr
  exact ⟨ps, h1, h2, h3, fun x => by rw [h4 x]; simp⟩

/-! ### The linearisation -/

/-- `φ` respects the operations -/
structure Hom {C M : Type} [AddCommGroup M] [Module F M] (ops : HomOps F C) (φ : C → M) : Prop where
  add : ∀ a b, φ (ops.add a b) = φ a + φ b
  sub : ∀ a b, φ (ops.sub a b) = φ a - φ b
  mul : ∀ a s, φ (ops.mul a s) = s • φ a

omit [DecidableEq F] in
theorem hom_comm : Hom (F := F) (commOps : HomOps F G1) id := ⟨fun _ _ => rfl, fun _ _ => rfl, fun _ _ => rfl⟩

theorem hom_poly : Hom (polyOps : HomOps F (List F)) toPoly :=
  ⟨fun a b => tp_add a b, fun a b => tp_sub a b, fun a s => by
    rw [show polyOps.mul a s = mulScalar a s from rfl, tp_mulScalar, smul_eq_C_mul]⟩

omit [DecidableEq F] in
theorem tCombine_eq {C M : Type} [AddCommGroup M] [Module F M] {ops : HomOps F C} {φ : C → M} (hφ : Hom ops φ) (factor : F) :
    ∀ (ts : List C) (e : F) (acc : C), φ (tCombine ops factor ts e acc) = φ acc + e • combine factor (ts.map φ)
  | [], e, acc => by simp [tCombine, combine]
  | t :: ts, e, acc => by
    rw [tCombine, tCombine_eq hφ factor ts, hφ.add, hφ.mul, List.map_cons, combine]
    module

omit [DecidableEq F] in
theorem selectorLoop_eq {C M : Type} [AddCommGroup M] [Module F M] {ops : HomOps F C} {φ : C → M} (hφ : Hom ops φ) :
    ∀ (qs : List C) (w : List F) (acc : C), qs.length ≤ w.length →
      ∃ r, selectorLoop ops qs w acc = .ok r ∧ φ r = φ acc + (List.zipWith (fun a c => a • c) w (qs.map φ)).sum
  | [], w, acc, _ => ⟨acc, rfl, by simp⟩
  | q :: qs, [], acc, h => by simp at h
  | q :: qs, a :: w, acc, h => by
    obtain ⟨r, h1, h2⟩ := selectorLoop_eq hφ qs w (ops.add acc (ops.mul q a)) (by simpa using h)
    refine ⟨r, by rw [selectorLoop, h1], ?_⟩
    rw [h2, hφ.add, hφ.mul, List.map_cons, List.zipWith_cons_cons, List.sum_cons]
    abel

/-- the linearisation as an element of a module: every evaluation is a scalar, the selectors, `z`, the last permutation
polynomial, the boolean selector and the parts of the quotient are elements -/
def rForm {M : Type} [AddCommGroup M] [Module F M] (wEv k sEv : List F) (zEv : F) (ch : Challenges F) (l1 zh : F) (nT : Nat)
    (mult : List F) (qs : List M) (qb sLast z : M) (ts : List M) : M :=
  (List.zipWith (fun a c => a • c) mult qs).sum
    + (ch.alpha * (List.zipWith (fun w c => w + c * (ch.beta * ch.zeta) + ch.gamma) wEv k).prod + l1 * ch.alpha ^ 2) • z
    - (ch.alpha * zEv * ch.beta * (List.zipWith (fun w c => w + ch.beta * c + ch.gamma) (wEv.take 4) sEv).prod) • sLast
    + (ch.alpha ^ 3 * (wEv[1]?.getD 0 * (wEv[1]?.getD 0 - 1)) + ch.alpha ^ 4 * (wEv[2]?.getD 0 * (wEv[2]?.getD 0 - 1))
        + ch.alpha ^ 5 * (wEv[3]?.getD 0 * (wEv[3]?.getD 0 - 1))) • qb
    - zh • combine (ch.zeta ^ nT) ts

omit [DecidableEq F] in
theorem rPolyOrComm_eq {C M : Type} [AddCommGroup M] [Module F M] {ops : HomOps F C} {φ : C → M} (hφ : Hom ops φ)
    (a0 a1 a2 a3 a4 k0 k1 k2 k3 k4 s0 s1 s2 s3 : F) (more : List F) (zEv : F) (ch : Challenges F) (l1 zh : F) (nT : Nat)
    (mult : List F) (hmult : evalSelectorMultipliers [a0, a1, a2, a3, a4] = some mult)
    (q : C) (qs : List C) (hqs : qs.length ≤ 12) (qb sLast z t : C) (ts : List C) :
    ∃ r, rPolyOrComm ops mult (q :: qs) qb [k0, k1, k2, k3, k4] sLast z [a0, a1, a2, a3, a4] (s0 :: s1 :: s2 :: s3 :: more) zEv
        ch (t :: ts) l1 zh nT = .ok r ∧
      φ r = rForm [a0, a1, a2, a3, a4] [k0, k1, k2, k3, k4] (s0 :: s1 :: s2 :: s3 :: more) zEv ch l1 zh nT mult
        (φ q :: qs.map φ) (φ qb) (φ sLast) (φ z) (φ t :: ts.map φ) := by
  simp only [evalSelectorMultipliers, Option.some.injEq] at hmult
  subst hmult
  obtain ⟨r, h1, h2⟩ := selectorLoop_eq hφ qs
    [a1, a2, a3, a0 * a1, a2 * a3, 1, a0 * a1 * a2 * a3 * a4, a0 ^ 5, a1 ^ 5, a2 ^ 5, a3 ^ 5, -a4] (ops.mul q a0) (by simpa using hqs)
  have hz : zScalar [a0, a1, a2, a3, a4] [k0, k1, k2, k3, k4] ch l1 =
      .ok (ch.alpha * (a0 + k0 * (ch.beta * ch.zeta) + ch.gamma) * (a1 + k1 * (ch.beta * ch.zeta) + ch.gamma)
        * (a2 + k2 * (ch.beta * ch.zeta) + ch.gamma) * (a3 + k3 * (ch.beta * ch.zeta) + ch.gamma)
        * (a4 + k4 * (ch.beta * ch.zeta) + ch.gamma) + l1 * (ch.alpha * ch.alpha)) := by
    simp [zScalar, List.range_succ, index]
  have hs : sProduct [a0, a1, a2, a3, a4] (s0 :: s1 :: s2 :: s3 :: more) ch (ch.alpha * (zEv * ch.beta)) =
      .ok (ch.alpha * (zEv * ch.beta) * (a0 + ch.beta * s0 + ch.gamma) * (a1 + ch.beta * s1 + ch.gamma)
        * (a2 + ch.beta * s2 + ch.gamma) * (a3 + ch.beta * s3 + ch.gamma)) := by
    simp [sProduct, List.range_succ, index]
  unfold rPolyOrComm
  simp only [hz, hs, index, List.getElem?_cons_zero, Res.unwrap_some, Res.bind_ok, List.tail_cons, h1, List.getElem?_cons_succ]
  refine ⟨_, rfl, ?_⟩
  rw [hφ.sub, hφ.add, hφ.sub, hφ.add, hφ.mul, hφ.mul, hφ.mul, tCombine_eq hφ, h2, hφ.mul, hφ.mul, rForm]
  simp only [List.zipWith_cons_cons, List.sum_cons, List.zipWith_nil_right, List.zipWith_nil_left, List.prod_cons, List.prod_nil, List.take,
    List.getElem?_cons_zero, List.getElem?_cons_succ, Option.getD_some, combine]
  module

omit [DecidableEq F] in
theorem parallelSum_eq {C M : Type} [AddCommGroup M] [Module F M] {ops : HomOps F C} {φ : C → M} (hφ : Hom ops φ) (c : C)
    (cs : List C) (x : F) (xs : List F) :
    ∃ r, parallelSum ops (c :: cs) (x :: xs) = some r ∧
      φ r = (List.zipWith (fun a c => a • c) (x :: xs) (φ c :: cs.map φ)).sum := by
  refine ⟨_, rfl, ?_⟩
  have key : ∀ (cs : List C) (xs : List F) (acc : C),
      φ ((cs.zip xs).foldl (fun acc e => ops.add acc (ops.mul e.1 e.2)) acc) =
        φ acc + (List.zipWith (fun a c => a • c) xs (cs.map φ)).sum := by
    intro cs
    induction cs with
    | nil => intro xs acc; simp
    | cons d cs ih =>
      intro xs acc
      cases xs with
      | nil => simp
      | cons y xs =>
        rw [List.zip_cons_cons, List.foldl_cons, ih, hφ.add, hφ.mul, List.map_cons, List.zipWith_cons_cons, List.sum_cons]
        abel
  rw [key, hφ.mul, List.zipWith_cons_cons, List.sum_cons]

omit [DecidableEq F] in
theorem rPolyOrCommParallel_eq {C M : Type} [AddCommGroup M] [Module F M] {ops : HomOps F C} {φ : C → M} (hφ : Hom ops φ)
    (a0 a1 a2 a3 a4 k0 k1 k2 k3 k4 s0 s1 s2 s3 : F) (more : List F) (zEv : F) (ch : Challenges F) (l1 zh : F) (nT : Nat)
    (mult : List F) (hmult : evalSelectorMultipliers [a0, a1, a2, a3, a4] = some mult)
    (q : C) (qs : List C) (hqs : qs.length = 12) (qb sLast z t : C) (ts : List C) :
    ∃ r, rPolyOrCommParallel ops mult (q :: qs) qb [k0, k1, k2, k3, k4] sLast z [a0, a1, a2, a3, a4]
        (s0 :: s1 :: s2 :: s3 :: more) zEv ch (t :: ts) l1 zh nT = .ok r ∧
      φ r = rForm [a0, a1, a2, a3, a4] [k0, k1, k2, k3, k4] (s0 :: s1 :: s2 :: s3 :: more) zEv ch l1 zh nT mult
        (φ q :: qs.map φ) (φ qb) (φ sLast) (φ z) (φ t :: ts.map φ) := by
  simp only [evalSelectorMultipliers, Option.some.injEq] at hmult
  subst hmult
  unfold rPolyOrCommParallel
  rw [if_neg (by simp)]
  simp only [index, List.length_cons, List.length_nil, Nat.add_sub_cancel, Nat.zero_add, List.getElem?_cons_succ,
    List.getElem?_cons_zero, Res.unwrap_some, Res.bind_ok, List.tail_cons, List.take, parallelLoop, List.cons_append,
    List.nil_append]
  obtain ⟨r, h1, h2⟩ := parallelSum_eq hφ q (qs ++
    [ops.mul z (1 * (a0 + k0 * (ch.beta * ch.zeta) + ch.gamma) * (a1 + k1 * (ch.beta * ch.zeta) + ch.gamma)
        * (a2 + k2 * (ch.beta * ch.zeta) + ch.gamma) * (a3 + k3 * (ch.beta * ch.zeta) + ch.gamma)
        * (a4 + k4 * (ch.beta * ch.zeta) + ch.gamma) + l1 * ch.alpha),
      ops.mul (ops.mul sLast (1 * (a0 + ch.beta * s0 + ch.gamma) * (a1 + ch.beta * s1 + ch.gamma)
        * (a2 + ch.beta * s2 + ch.gamma) * (a3 + ch.beta * s3 + ch.gamma))) (zEv * ch.beta),
      ops.mul qb (0 + a0 * 0 * (a0 - 1) + a1 * ch.alpha ^ 2 * (a1 - 1) + a2 * ch.alpha ^ 3 * (a2 - 1)
        + a3 * ch.alpha ^ 4 * (a3 - 1)),
      tCombine ops (ch.zeta ^ nT) ts (zh * ch.zeta ^ nT) (ops.mul t zh)]) a0
    ([a1, a2, a3, a0 * a1, a2 * a3, 1, a0 * a1 * a2 * a3 * a4, a0 ^ 5, a1 ^ 5, a2 ^ 5, a3 ^ 5, -a4]
      ++ [ch.alpha, -ch.alpha, ch.alpha, -1])
  simp only [List.cons_append, List.nil_append] at h1
  refine ⟨r, ?_, ?_⟩
  · rw [h1]; rfl
  rw [h2, List.map_append, List.zipWith_cons_cons, List.zipWith_append (by simp [hqs]), List.sum_cons, List.sum_append]
  simp only [List.map_cons, List.map_nil, hφ.mul, tCombine_eq hφ]
  rw [rForm]
  simp only [List.zipWith_cons_cons, List.sum_cons, List.zipWith_nil_right, List.zipWith_nil_left, List.prod_cons, List.prod_nil, List.take,
    List.getElem?_cons_zero, List.getElem?_cons_succ, Option.getD_some, combine, List.sum_nil]
  module

/-- C60: with thirteen selectors, five wires, five coset representatives, at least four permutation values and at least one part
of the quotient, the sequential and the parallel version of `r_poly_or_comm` give the same commitment. -/
theorem C60_parallel_commitment (wEv k sEv : List F) (zEv : F) (ch : Challenges F) (l1 zh : F) (nT : Nat) (mult : List F)
    (hmult : evalSelectorMultipliers wEv = some mult) (hw : wEv.length = 5) (hk : k.length = 5) (hs : 4 ≤ sEv.length)
    (qs : List G1) (hqs : qs.length = 13) (qb sLast z : G1) (ts : List G1) (hts : ts ≠ []) :
    ∃ r, rPolyOrComm commOps mult qs qb k sLast z wEv sEv zEv ch ts l1 zh nT = .ok r ∧
      rPolyOrCommParallel commOps mult qs qb k sLast z wEv sEv zEv ch ts l1 zh nT = .ok r := by
  match wEv, hw, k, hk, sEv, hs, qs, hqs, ts, hts with
  | [a0, a1, a2, a3, a4], _, [k0, k1, k2, k3, k4], _, s0 :: s1 :: s2 :: s3 :: more, _, q :: qs, hqs, t :: ts, _ =>
    obtain ⟨r, h1, h2⟩ := rPolyOrComm_eq (hom_comm (F := F) (G1 := G1)) a0 a1 a2 a3 a4 k0 k1 k2 k3 k4 s0 s1 s2 s3 more zEv ch l1 zh nT mult
      hmult q qs (by simp at hqs; omega) qb sLast z t ts
    obtain ⟨r', h1', h2'⟩ := rPolyOrCommParallel_eq (hom_comm (F := F) (G1 := G1)) a0 a1 a2 a3 a4 k0 k1 k2 k3 k4 s0 s1 s2 s3 more zEv ch l1 zh
      nT mult hmult q qs (by simpa using hqs) qb sLast z t ts
    have e : r = r' := h2.trans h2'.symm
    exact ⟨r, h1, by rw [e]; exact h1'⟩

end Verif.Snark
