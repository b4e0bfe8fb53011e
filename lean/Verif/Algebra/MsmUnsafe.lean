import Mathlib.AlgebraicGeometry.EllipticCurve.Affine.Point
import Mathlib.Algebra.BigOperators.Group.List.Basic
import Mathlib.Data.Nat.Digits.Defs
import Mathlib.Data.Nat.Log
import Mathlib.Logic.Function.Iterate
import Mathlib.Tactic.Abel
import Mathlib.Tactic.LinearCombination
import Mathlib.Tactic.Ring

/-!
C69: the multi-exponentiation that commits to polynomials, `BLSG1::multi_exp_unsafe` with `msm_unsafe` and `reduce_buckets`
(algebra/src/bls12_381.rs:436-657), used by `KZGCommitmentSchemeBLS::commit` (plonk/src/poly_commit/kzg_poly_com.rs:229).

`F` stands for the base field of BLS12-381, the group for the points of a curve `y² = x³ + a₄ x + a₆`.  Arithmetic on
projective points is arkworks; it is the group law here, with `addMixed` (`add_assign_mixed`) a parameter.
-/

namespace Verif.Msm

/-! ### Model -/

/-- `G1Affine` of arkworks -/
structure Aff (F : Type) where
  x : F
  y : F
  inf : Bool

/-- models `ln_without_floats`, bls12_381.rs:454-457; `ark_std::log2` rounds up -/
def lnWithoutFloats (a : Nat) : Nat := Nat.clog 2 a * 69 / 100

/-- the window size, bls12_381.rs:472-476; from 512 entries on the logarithm is at least 6 -/
def windowBits (n : Nat) : Nat := if n < 512 then 3 else lnWithoutFloats n - 3

/-- the body of the `for_each`, bls12_381.rs:496-521: one entry, scalar and base, goes to a bucket.  `divn` is a shift,
`as_ref()[0]` the lowest 64 bits.  The index is below `2^c`, the number of buckets. -/
def bucketPush {α : Type} (c start : Nat) (buckets : List (List α)) (e : Nat × α) : List (List α) :=
  if e.1 = 1 then
    if start = 0 then buckets.modify 0 (· ++ [e.2]) else buckets
  else
    let d := e.1 / 2 ^ start % 2 ^ 64 % 2 ^ c
    if d ≠ 0 then buckets.modify d (· ++ [e.2]) else buckets

/-- bls12_381.rs:488-521 -/
def buckets {α : Type} (c start : Nat) (entries : List (Nat × α)) : List (List α) :=
  entries.foldl (bucketPush c start) (List.replicate (2 ^ c) [])

/-- `chunks_exact(2)` -/
def chunks2 {α : Type} : List α → List (α × α)
  | a :: b :: l => (a, b) :: chunks2 l
  | _ => []

/-- the pairs that are added in one round, bls12_381.rs:586-594 and 621-625: an odd bucket keeps its first point -/
def neighbours {α : Type} (l : List α) : List (α × α) := chunks2 (if l.length % 2 = 1 then l.drop 1 else l)

/-- one round on one bucket, bls12_381.rs:627-651, with the addition `f` of two points -/
def halveWith {α : Type} (f : α → α → α) (l : List α) : List α :=
  (if l.length % 2 = 1 then l.take 1 else []) ++ (neighbours l).map (fun e => f e.1 e.2)

section model
variable {F G : Type} [Field F] [AddCommGroup G]

/-- the affine addition, bls12_381.rs:631-643: the formula for two points with different abscissas.  The inverses come from
`ark_ff::batch_inversion`, which inverts every entry and leaves zeros alone. -/
def chord (p q : Aff F) : Aff F :=
  let m := (q.y - p.y) * (q.x - p.x)⁻¹
  let x3 := m ^ 2 - p.x - q.x
  let y3 := m * (p.x - x3) - p.y
  ⟨x3, y3, false⟩

/-- `THRESHOLD`, bls12_381.rs:566 -/
def threshold : Nat := 16

/-- one iteration of the loop of `reduce_buckets` on one bucket and its result, bls12_381.rs:578-605 and 615-652: a bucket
above the threshold is halved, a smaller one is summed and cleared -/
def reduceStep (addMixed : G → Aff F → G) (e : List (Aff F) × G) : List (Aff F) × G :=
  if e.1.length > threshold then (halveWith chord e.1, e.2)
  else if e.1.length ≠ 0 then ([], e.1.foldl addMixed 0)
  else e

omit [Field F] in
theorem chunks2_length {α : Type} : ∀ l : List α, (chunks2 l).length = l.length / 2
  | [] => by simp [chunks2]
  | [a] => by simp [chunks2]
  | a :: b :: l => by rw [chunks2, List.length_cons, chunks2_length l, List.length_cons, List.length_cons]; omega

omit [Field F] in
theorem halveWith_length {α : Type} (f : α → α → α) (l : List α) : (halveWith f l).length = (l.length + 1) / 2 := by
  rw [halveWith, List.length_append, List.length_map, neighbours, chunks2_length]
  split
  · rw [List.length_take, List.length_drop]; omega
  · rw [List.length_nil]; omega

theorem reduceStep_length (addMixed : G → Aff F → G) (e : List (Aff F) × G) :
    (reduceStep addMixed e).1.length ≤ e.1.length ∧
      (e.1.length > threshold → (reduceStep addMixed e).1.length < e.1.length) := by
  unfold reduceStep threshold
  split
  · rw [halveWith_length]; constructor
    · omega
    · intro; omega
  · split
    · exact ⟨by simp, fun h => absurd h (by assumption)⟩
    · exact ⟨le_refl _, fun h => absurd h (by assumption)⟩

/-- one iteration of that loop on all buckets, bls12_381.rs:571-653 -/
def reducePass (addMixed : G → Aff F → G) (st : List (List (Aff F) × G)) : List (List (Aff F) × G) :=
  st.map (reduceStep addMixed)

/-- the loop of `reduce_buckets`, bls12_381.rs:570-654: it ends after a pass in which every bucket was small -/
def reduceLoop (addMixed : G → Aff F → G) (st : List (List (Aff F) × G)) : List (List (Aff F) × G) :=
  if st.all (fun e => decide (e.1.length ≤ threshold)) then reducePass addMixed st
  else reduceLoop addMixed (reducePass addMixed st)
termination_by (st.map (fun e => e.1.length)).sum
decreasing_by
  rename_i h
  rw [reducePass, List.map_map]
  refine List.sum_lt_sum _ _ (fun e _ => (reduceStep_length addMixed e).1) ?_
  simp only [List.all_eq_true, decide_eq_true_eq, not_forall, not_le] at h
  obtain ⟨e, he, hl⟩ := h
  exact ⟨e, he, (reduceStep_length addMixed e).2 hl⟩

/-- models `reduce_buckets`, bls12_381.rs:565-657 -/
def reduceBuckets (addMixed : G → Aff F → G) (bs : List (List (Aff F))) : List G :=
  (reduceLoop addMixed (bs.map (fun b => (b, 0)))).map (·.2)

/-- the sum of one window, bls12_381.rs:523-550; indexing an empty vector panics -/
def windowSum (addMixed : G → Aff F → G) (c : Nat) (entries : List (Nat × Aff F)) (start : Nat) : Option G :=
  match reduceBuckets addMixed (buckets c start entries) with
  | [] => none
  | b0 :: rest => some (rest.reverse.foldl (fun st b => (st.1 + b, st.2 + (st.1 + b))) ((0 : G), b0)).2

/-- models `msm_unsafe`, bls12_381.rs:460-562, with `bits` = `MODULUS_BITS` = 255; scalars are the integers below the
modulus that `into_repr` gives -/
def msmUnsafe (addMixed : G → Aff F → G) (bits : Nat) (bases : List (Aff F)) (scalars : List Nat) : Option G := do
  let entries := (scalars.zip bases).filter (fun e => decide (e.1 ≠ 0))
  let c := windowBits entries.length
  let starts := (List.range ((bits + c - 1) / c)).map (fun j => j * c)
  let sums ← starts.mapM (windowSum addMixed c entries)
  match sums with
  | [] => none
  | lowest :: rest => some (lowest + rest.reverse.foldl (fun total s => (fun t => t + t)^[c] (total + s)) 0)

end model

/-! ### Specification -/

section spec
variable {F : Type} [Field F] [DecidableEq F]

/-- the affine value is a point of the curve -/
def Good (W : WeierstrassCurve.Affine F) (a : Aff F) : Prop := a.inf = true ∨ W.Nonsingular a.x a.y

open Classical in
/-- the point it stands for -/
noncomputable def point (W : WeierstrassCurve.Affine F) (a : Aff F) : W.Point :=
  if a.inf = true then 0 else if h : W.Nonsingular a.x a.y then .some a.x a.y h else 0

/-- what is assumed of `add_assign_mixed`: on points of the curve it is the group law -/
def MixedOk (W : WeierstrassCurve.Affine F) (addMixed : W.Point → Aff F → W.Point) : Prop :=
  ∀ g a, Good W a → addMixed g a = g + point W a

/-- the sum of the products -/
noncomputable def sumOfProducts (W : WeierstrassCurve.Affine F) (scalars : List Nat) (bases : List (Aff F)) : W.Point :=
  (List.zipWith (fun s a => s • point W a) scalars bases).sum

/-- two finite points with different abscissas -/
def Apart {G : Type} [AddCommGroup G] (p q : G) : Prop := p ≠ 0 ∧ q ≠ 0 ∧ p ≠ q ∧ p ≠ -q

/-- a list of points is added up by rounds in which neighbours are added until sixteen are left, and no round meets neighbours
that are equal, opposite, or zero -/
def Generic {G : Type} [AddCommGroup G] (l : List G) : Prop :=
  ∀ k, threshold < ((halveWith (· + ·))^[k] l).length → ∀ e ∈ neighbours ((halveWith (· + ·))^[k] l), Apart e.1 e.2

/-- the bucket of a scalar in the window that starts at bit `start`: one is treated apart -/
def bucketOf (c start s : Nat) : Option Nat :=
  if s = 1 then if start = 0 then some 0 else none
  else if s / 2 ^ start % 2 ^ c = 0 then none else some (s / 2 ^ start % 2 ^ c)

/-- the bases whose scalar has digit `d` in the window -/
def bucket {α : Type} (c start d : Nat) (entries : List (Nat × α)) : List α :=
  (entries.filter (fun e => decide (bucketOf c start e.1 = some d))).map (·.2)

end spec

/-! ### Buckets -/

theorem getElem?_bucketPush {α : Type} (c start : Nat) (hc : c ≤ 64) (bs : List (List α)) (e : Nat × α) (d : Nat) :
    (bucketPush c start bs e)[d]? = (bs[d]?).map (fun l => l ++ (if bucketOf c start e.1 = some d then [e.2] else [])) := by
  have hmod : e.1 / 2 ^ start % 2 ^ 64 % 2 ^ c = e.1 / 2 ^ start % 2 ^ c :=
    Nat.mod_mod_of_dvd _ (pow_dvd_pow 2 hc)
  unfold bucketPush bucketOf
  by_cases h1 : e.1 = 1
  · by_cases h0 : start = 0
    · simp only [h1, h0, if_true, List.getElem?_modify, Option.some.injEq]
      by_cases hd : 0 = d <;> cases bs[d]? <;> simp [hd]
    · simp only [h1, h0, if_true, if_false]
      cases bs[d]? <;> simp
  · simp only [h1, if_false, hmod]
    by_cases h0 : e.1 / 2 ^ start % 2 ^ c = 0
    · simp only [h0, ne_eq, not_true_eq_false, if_false, if_true]
      cases bs[d]? <;> simp
    · simp only [h0, ne_eq, not_false_eq_true, if_true, if_false, List.getElem?_modify, Option.some.injEq]
      by_cases hd : e.1 / 2 ^ start % 2 ^ c = d <;> cases bs[d]? <;> simp [hd]

theorem bucketPush_length {α : Type} (c start : Nat) (bs : List (List α)) (e : Nat × α) :
    (bucketPush c start bs e).length = bs.length := by
  unfold bucketPush
  split
  · split <;> simp
  · dsimp only; split <;> simp

theorem getElem?_foldl_push {α : Type} (c start : Nat) (hc : c ≤ 64) (es : List (Nat × α)) (d : Nat) :
    ∀ bs : List (List α), (es.foldl (bucketPush c start) bs)[d]? = (bs[d]?).map (fun l => l ++ bucket c start d es) := by
  induction es with
  | nil => intro bs; cases h : bs[d]? <;> simp [bucket, h]
  | cons e es ih =>
    intro bs
    rw [List.foldl_cons, ih, getElem?_bucketPush c start hc bs]
    cases bs[d]? with
    | none => rfl
    | some l =>
      simp only [Option.map_some, bucket, List.filter_cons]
      by_cases h : bucketOf c start e.1 = some d <;> simp [h]

theorem foldl_push_length {α : Type} (c start : Nat) (es : List (Nat × α)) :
    ∀ bs : List (List α), (es.foldl (bucketPush c start) bs).length = bs.length := by
  induction es with
  | nil => intro bs; rfl
  | cons e es ih => intro bs; rw [List.foldl_cons, ih, bucketPush_length]

/-- what is in the buckets -/
theorem buckets_eq {α : Type} (c start : Nat) (hc : c ≤ 64) (es : List (Nat × α)) :
    buckets c start es = (List.range (2 ^ c)).map (fun d => bucket c start d es) := by
  refine List.ext_getElem? fun d => ?_
  rw [buckets, getElem?_foldl_push c start hc es d, List.getElem?_map]
  by_cases hd : d < 2 ^ c
  · rw [List.getElem?_replicate, if_pos hd, List.getElem?_range hd]; simp
  · rw [List.getElem?_replicate, if_neg hd, List.getElem?_eq_none (l := List.range (2 ^ c)) (by simpa using Nat.le_of_not_lt hd)]; simp

/-! ### Reduction of buckets -/

section reduce
variable {F G : Type} [Field F] [AddCommGroup G]

/-- the value `reduce_buckets` leaves for one bucket -/
def value (addMixed : G → Aff F → G) (l : List (Aff F)) : G :=
  if l.length > threshold then value addMixed (halveWith chord l) else l.foldl addMixed 0
termination_by l.length
decreasing_by
  rename_i h
  rw [halveWith_length]
  unfold threshold at h
  omega

theorem reduceLoop_eq (addMixed : G → Aff F → G) (st : List (List (Aff F) × G)) :
    (reduceLoop addMixed st).map (·.2) = st.map (fun e => if e.1.length = 0 then e.2 else value addMixed e.1) := by
  induction st using reduceLoop.induct addMixed with
  | case1 st h =>
    rw [reduceLoop, if_pos h, reducePass, List.map_map]
    refine List.map_congr_left fun e he => ?_
    have hl : e.1.length ≤ threshold := by
      have := List.all_eq_true.mp h e he
      simpa using this
    simp only [Function.comp_apply, reduceStep]
    rw [if_neg (by omega)]
    by_cases h0 : e.1.length = 0
    · rw [if_neg (by simpa using h0), if_pos h0]
    · rw [if_pos h0, if_neg h0, value, if_neg (by omega)]
  | case2 st h ih =>
    rw [reduceLoop, if_neg h, ih, reducePass, List.map_map]
    refine List.map_congr_left fun e he => ?_
    by_cases hl : e.1.length > threshold
    · have hs : reduceStep addMixed e = (halveWith chord e.1, e.2) := by rw [reduceStep, if_pos hl]
      have h1 : (halveWith chord e.1).length ≠ 0 := by rw [halveWith_length]; unfold threshold at hl; omega
      have h2 : e.1.length ≠ 0 := by unfold threshold at hl; omega
      simp only [Function.comp_apply, hs]
      rw [if_neg h1, if_neg h2]
      conv_rhs => rw [value, if_pos hl]
    · by_cases h0 : e.1.length = 0
      · have hs : reduceStep addMixed e = e := by
          rw [reduceStep, if_neg hl, if_neg (by simpa using h0)]
        simp only [Function.comp_apply, hs]
      · have hs : reduceStep addMixed e = ([], e.1.foldl addMixed 0) := by rw [reduceStep, if_neg hl, if_pos h0]
        simp only [Function.comp_apply, hs, List.length_nil, if_true]
        rw [if_neg h0, value, if_neg hl]

theorem reduceBuckets_eq (addMixed : G → Aff F → G) (bs : List (List (Aff F))) :
    reduceBuckets addMixed bs = bs.map (value addMixed) := by
  rw [reduceBuckets, reduceLoop_eq, List.map_map]
  refine List.map_congr_left fun b _ => ?_
  simp only [Function.comp_apply]
  by_cases h : b.length = 0
  · rw [if_pos h, List.length_eq_zero_iff.mp h, value, if_neg (by simp [threshold])]; rfl
  · rw [if_neg h]

end reduce

section points
variable {F : Type} [Field F] [DecidableEq F] {W : WeierstrassCurve.Affine F}

/-- the chord formula on finite points with different abscissas is the group law -/
theorem chord_good (h1 : W.a₁ = 0) (h2 : W.a₂ = 0) (h3 : W.a₃ = 0) {p q : Aff F} (hp : Good W p) (hq : Good W q)
    (ha : Apart (point W p) (point W q)) : Good W (chord p q) ∧ point W (chord p q) = point W p + point W q := by
  obtain ⟨hp0, hq0, hne, hno⟩ := ha
  have hpi : p.inf ≠ true := fun h => hp0 (by rw [point, if_pos h])
  have hqi : q.inf ≠ true := fun h => hq0 (by rw [point, if_pos h])
  have hpn : W.Nonsingular p.x p.y := hp.resolve_left hpi
  have hqn : W.Nonsingular q.x q.y := hq.resolve_left hqi
  have ep : point W p = .some p.x p.y hpn := by rw [point, if_neg hpi, dif_pos hpn]
  have eq : point W q = .some q.x q.y hqn := by rw [point, if_neg hqi, dif_pos hqn]
  have hx : p.x ≠ q.x := by
    intro hx
    rcases WeierstrassCurve.Affine.Y_eq_of_X_eq hpn.1 hqn.1 hx with hy | hy
    · apply hne; rw [ep, eq]; simp only [WeierstrassCurve.Affine.Point.some.injEq]; exact ⟨hx, hy⟩
    · apply hno; rw [ep, eq, WeierstrassCurve.Affine.Point.neg_some]
      simp only [WeierstrassCurve.Affine.Point.some.injEq]; exact ⟨hx, hy⟩
  have hd : q.x - p.x ≠ 0 := sub_ne_zero.2 (Ne.symm hx)
  have hslope : W.slope p.x q.x p.y q.y = (q.y - p.y) * (q.x - p.x)⁻¹ := by
    rw [WeierstrassCurve.Affine.slope_of_X_ne hx, div_eq_iff (sub_ne_zero.2 hx), mul_assoc,
      show (q.x - p.x)⁻¹ * (p.x - q.x) = -((q.x - p.x)⁻¹ * (q.x - p.x)) by ring, inv_mul_cancel₀ hd]
    ring
  have hX : W.addX p.x q.x ((q.y - p.y) * (q.x - p.x)⁻¹) = (chord p q).x := by
    simp only [WeierstrassCurve.Affine.addX, chord, h1, h2]; ring
  have hY : W.addY p.x q.x p.y ((q.y - p.y) * (q.x - p.x)⁻¹) = (chord p q).y := by
    simp only [WeierstrassCurve.Affine.addY, WeierstrassCurve.Affine.negY, WeierstrassCurve.Affine.negAddY, hX, h1, h3]
    simp only [chord]; ring
  have hn := WeierstrassCurve.Affine.nonsingular_add hpn hqn (fun hxy => hx hxy.1)
  rw [hslope, hX, hY] at hn
  refine ⟨.inr hn, ?_⟩
  rw [ep, eq, WeierstrassCurve.Affine.Point.add_of_X_ne hx, point, if_neg (by simp [chord]), dif_pos hn]
  simp only [WeierstrassCurve.Affine.Point.some.injEq]
  rw [hslope, hX, hY]
  exact ⟨rfl, rfl⟩

omit [Field F] [DecidableEq F] in
theorem chunks2_map {α β : Type} (f : α → β) : ∀ l : List α, chunks2 (l.map f) = (chunks2 l).map (fun e => (f e.1, f e.2))
  | [] => rfl
  | [_] => rfl
  | a :: b :: l => by simp only [List.map_cons, chunks2, chunks2_map f l]

omit [Field F] [DecidableEq F] in
theorem neighbours_map {α β : Type} (f : α → β) (l : List α) :
    neighbours (l.map f) = (neighbours l).map (fun e => (f e.1, f e.2)) := by
  unfold neighbours
  rw [List.length_map]
  split
  · rw [← List.map_drop, chunks2_map]
  · rw [chunks2_map]

omit [Field F] [DecidableEq F] in
theorem chunks2_mem {α : Type} : ∀ (l : List α) (e : α × α), e ∈ chunks2 l → e.1 ∈ l ∧ e.2 ∈ l
  | [], _, h => by simp [chunks2] at h
  | [_], _, h => by simp [chunks2] at h
  | a :: b :: l, e, h => by
    rcases List.mem_cons.mp h with rfl | h
    · simp
    · have := chunks2_mem l e h
      exact ⟨by simp [this.1], by simp [this.2]⟩

omit [Field F] [DecidableEq F] in
theorem neighbours_mem {α : Type} (l : List α) (e : α × α) (h : e ∈ neighbours l) : e.1 ∈ l ∧ e.2 ∈ l := by
  unfold neighbours at h
  split at h
  · exact ⟨List.mem_of_mem_drop (chunks2_mem _ e h).1, List.mem_of_mem_drop (chunks2_mem _ e h).2⟩
  · exact chunks2_mem _ e h

/-- a round keeps the sum -/
theorem chunks2_sum {G : Type} [AddCommGroup G] : ∀ l : List G, l.length % 2 = 0 → ((chunks2 l).map (fun e => e.1 + e.2)).sum = l.sum
  | [], _ => rfl
  | [_], h => by simp at h
  | a :: b :: l, h => by
    have := chunks2_sum l (by simpa [Nat.add_assoc] using h)
    simp only [chunks2, List.map_cons, List.sum_cons, this]; abel

theorem halveWith_sum {G : Type} [AddCommGroup G] (l : List G) : (halveWith (· + ·) l).sum = l.sum := by
  rw [halveWith, neighbours, List.sum_append]
  split
  · rw [chunks2_sum _ (by rw [List.length_drop]; omega)]
    conv_rhs => rw [← List.take_append_drop 1 l, List.sum_append]
  · rw [chunks2_sum _ (by omega)]; simp

/-- a round of affine additions, when neighbours are apart -/
theorem halve_good (h1 : W.a₁ = 0) (h2 : W.a₂ = 0) (h3 : W.a₃ = 0) (l : List (Aff F)) (hl : ∀ a ∈ l, Good W a)
    (ha : ∀ e ∈ neighbours (l.map (point W)), Apart e.1 e.2) :
    (∀ a ∈ halveWith chord l, Good W a) ∧ (halveWith chord l).map (point W) = halveWith (· + ·) (l.map (point W)) := by
  have key : ∀ e ∈ neighbours l, Good W (chord e.1 e.2) ∧ point W (chord e.1 e.2) = point W e.1 + point W e.2 := by
    intro e he
    refine chord_good h1 h2 h3 (hl _ (neighbours_mem l e he).1) (hl _ (neighbours_mem l e he).2) ?_
    exact ha (point W e.1, point W e.2) (by rw [neighbours_map]; exact List.mem_map.mpr ⟨e, he, rfl⟩)
  constructor
  · intro a h
    rw [halveWith, List.mem_append] at h
    rcases h with h | h
    · split at h
      · exact hl a (List.mem_of_mem_take h)
      · simp at h
    · obtain ⟨e, he, rfl⟩ := List.mem_map.mp h
      exact (key e he).1
  · rw [halveWith, halveWith, List.map_append, List.length_map, neighbours_map, List.map_map, List.map_map]
    congr 1
    · split
      · rw [List.map_take]
      · rfl
    · exact List.map_congr_left fun e he => (key e he).2

omit [DecidableEq F] in
theorem foldl_mixed [DecidableEq F] (add : W.Point → Aff F → W.Point) (hadd : MixedOk W add) (l : List (Aff F)) (hl : ∀ a ∈ l, Good W a) :
    ∀ g, l.foldl add g = g + (l.map (point W)).sum := by
  induction l with
  | nil => intro g; simp
  | cons a l ih =>
    intro g
    rw [List.foldl_cons, ih (fun a h => hl a (by simp [h])), hadd g a (hl a (by simp))]
    simp only [List.map_cons, List.sum_cons]; abel

/-- a bucket is summed correctly when its rounds meet no exceptional pair -/
theorem value_eq (h1 : W.a₁ = 0) (h2 : W.a₂ = 0) (h3 : W.a₃ = 0) (add : W.Point → Aff F → W.Point) (hadd : MixedOk W add) :
    ∀ (l : List (Aff F)), (∀ a ∈ l, Good W a) → Generic (l.map (point W)) → value add l = (l.map (point W)).sum := by
  intro l
  induction l using value.induct with
  | case1 l hlen ih =>
    intro hl hg
    have h0 := hg 0 (by simpa using hlen)
    simp only [Function.iterate_zero, id_eq] at h0
    obtain ⟨hgood, hmap⟩ := halve_good h1 h2 h3 l hl h0
    rw [value, if_pos hlen, ih hgood, hmap, halveWith_sum]
    intro k hk e he
    rw [hmap, ← Function.iterate_succ_apply] at hk he
    exact hg (k + 1) hk e he
  | case2 l hlen =>
    intro hl _
    rw [value, if_neg hlen, foldl_mixed add hadd l hl, zero_add]

end points

/-! ### Windows -/

section windows
variable {G : Type} [AddCommGroup G]

/-- the digit of a scalar in a window, one being treated apart -/
def weight (c start s : Nat) : Nat := if s = 1 then (if start = 0 then 1 else 0) else s / 2 ^ start % 2 ^ c

theorem running_eq (r : List G) (i s : G) :
    (r.foldl (fun (st : G × G) b => (st.1 + b, st.2 + (st.1 + b))) (i, s)) =
      (i + r.sum, s + r.length • i + (List.map (fun k => (r.length - k) • (r[k]?).getD 0) (List.range r.length)).sum) := by
  induction r generalizing i s with
  | nil => simp
  | cons b r ih =>
    rw [List.foldl_cons, ih]
    refine Prod.ext ?_ ?_
    · simp only [List.sum_cons]; abel
    · simp only [List.length_cons, List.range_succ_eq_map, List.map_cons, List.sum_cons, List.map_map, Nat.sub_zero,
        List.getElem?_cons_zero, Option.getD_some]
      have : (fun k => (r.length + 1 - k) • ((b :: r)[k]?).getD 0) ∘ Nat.succ = fun k => (r.length - k) • (r[k]?).getD 0 := by
        funext k
        simp [Function.comp_apply]
      rw [this, add_smul, add_smul, one_smul, one_smul, smul_add]
      abel

/-- the running sum over the buckets from the top: bucket `d` counts `d` times, bucket zero once -/
theorem running_range (m : Nat) (f : Nat → G) (b0 : G) :
    ((((List.range m).map f).reverse).foldl (fun (st : G × G) b => (st.1 + b, st.2 + (st.1 + b))) (0, b0)) =
      (((List.range m).map f).sum, b0 + ((List.range m).map (fun d => (d + 1) • f d)).sum) := by
  induction m generalizing b0 with
  | zero => simp
  | succ m ih =>
    rw [List.range_succ, List.map_append, List.map_cons, List.map_nil, List.reverse_append, List.reverse_singleton,
      List.singleton_append, List.foldl_cons, running_eq]
    have h0 := ih b0
    rw [running_eq] at h0
    have h2 := congrArg Prod.snd h0
    simp only [smul_zero, add_zero] at h2
    refine Prod.ext ?_ ?_
    · simp only [List.sum_append, List.sum_reverse, zero_add, List.sum_cons, List.sum_nil, add_zero]; abel
    · simp only [List.length_reverse, List.length_map, List.length_range] at h2 ⊢
      simp only [zero_add, List.map_append, List.sum_append, List.map_cons, List.map_nil, List.sum_cons, List.sum_nil, add_zero]
      have e : ∀ a b c d : G, b0 + a = b0 + b → b0 + c + d + a = b0 + (b + (d + c)) := by
        intro a b c d h
        have := add_left_cancel h
        rw [this]; abel
      rw [e _ _ _ _ h2, add_smul, one_smul]

/-- counting every bucket with its index counts every entry with its digit -/
theorem sum_buckets (c start : Nat) (g : Nat × G → G) (hg : ∀ e, g e = e.2) (es : List (Nat × G)) (hs : ∀ e ∈ es, e.1 ≠ 0) :
    (bucket c start 0 es).sum + ((List.range (2 ^ c - 1)).map (fun d => (d + 1) • (bucket c start (d + 1) es).sum)).sum =
      (es.map (fun e => weight c start e.1 • g e)).sum := by
  induction es with
  | nil => simp [bucket]
  | cons e es ih =>
    have ih := ih (fun e h => hs e (by simp [h]))
    have hb : ∀ d, (bucket c start d (e :: es)).sum = (if bucketOf c start e.1 = some d then e.2 else 0) + (bucket c start d es).sum := by
      intro d
      simp only [bucket, List.filter_cons]
      by_cases h : bucketOf c start e.1 = some d <;> simp [h]
    rw [List.map_cons, List.sum_cons, ← ih, hb, hg]
    simp only [hb, smul_add]
    have hsplit : ∀ (n : Nat) (u v : Nat → G), ((List.range n).map (fun d => u d + v d)).sum =
        ((List.range n).map u).sum + ((List.range n).map v).sum := by
      intro n u v
      exact List.sum_map_add
    rw [hsplit]
    have hpoint : (if bucketOf c start e.1 = some 0 then e.2 else 0) +
        ((List.range (2 ^ c - 1)).map (fun d => (d + 1) • (if bucketOf c start e.1 = some (d + 1) then e.2 else 0))).sum =
        weight c start e.1 • e.2 := by
      unfold bucketOf weight
      by_cases h1 : e.1 = 1
      · simp only [h1, if_true]
        by_cases h0 : start = 0 <;> simp [h0]
      · simp only [h1, if_false]
        by_cases h0 : e.1 / 2 ^ start % 2 ^ c = 0
        · simp [h0]
        · rw [if_neg h0]
          have hlt : e.1 / 2 ^ start % 2 ^ c < 2 ^ c := Nat.mod_lt _ (by positivity)
          generalize e.1 / 2 ^ start % 2 ^ c = d at *
          rw [if_neg (by simpa using h0), zero_add]
          have : ∀ n k, ((List.range n).map (fun i => (i + 1) • (if some (k + 1) = some (i + 1) then e.2 else 0))).sum =
              if k < n then (k + 1) • e.2 else 0 := by
            intro n k
            induction n with
            | zero => simp
            | succ n ih =>
              rw [List.range_succ, List.map_append, List.sum_append, ih]
              by_cases hk : k < n
              · have : k ≠ n := by omega
                simp [hk, this, Nat.lt_succ_of_lt hk]
              · by_cases hk' : k = n
                · simp [hk']
                · have : ¬ k < n + 1 := by omega
                  simp [hk, hk', this]
          obtain ⟨k, rfl⟩ := Nat.exists_eq_succ_of_ne_zero h0
          have := this (2 ^ c - 1) k
          rw [if_pos (by omega)] at this
          exact this
    rw [← hpoint]; abel

theorem iterate_double (c : Nat) (g : G) : (fun t => t + t)^[c] g = 2 ^ c • g := by
  induction c generalizing g with
  | zero => simp
  | succ c ih => rw [Function.iterate_succ_apply, ih, ← two_nsmul, smul_smul, pow_succ]

/-- putting the windows together -/
theorem fold_windows (c n : Nat) (f : Nat → G) :
    (((List.range n).map (fun j => f (j + 1))).reverse).foldl (fun total s => (fun t => t + t)^[c] (total + s)) 0 =
      ((List.range n).map (fun j => 2 ^ (c * (j + 1)) • f (j + 1))).sum := by
  have gen : ∀ (n : Nat) (f : Nat → G) (a : G),
      (((List.range n).map f).reverse).foldl (fun total s => (fun t => t + t)^[c] (total + s)) a =
        2 ^ (c * n) • a + ((List.range n).map (fun j => 2 ^ (c * (j + 1)) • f j)).sum := by
    intro n f
    induction n with
    | zero => intro a; simp
    | succ n ih =>
      intro a
      rw [List.range_succ, List.map_append, List.map_cons, List.map_nil, List.reverse_append, List.reverse_singleton,
        List.singleton_append, List.foldl_cons, ih, iterate_double, smul_smul, ← pow_add, List.map_append, List.sum_append]
      rw [show c * n + c = c * (n + 1) by ring]
      simp only [List.map_cons, List.map_nil, List.sum_cons, List.sum_nil, add_zero, smul_add]
      abel
  rw [gen n (fun j => f (j + 1)) 0, smul_zero, zero_add]

theorem sum_digits (c n s : Nat) : ((List.range n).map (fun j => 2 ^ (c * j) * (s / 2 ^ (j * c) % 2 ^ c))).sum = s % 2 ^ (c * n) := by
  induction n with
  | zero => simp [Nat.mod_one]
  | succ n ih =>
    rw [List.range_succ, List.map_append, List.sum_append, ih]
    simp only [List.map_cons, List.map_nil, List.sum_cons, List.sum_nil, add_zero]
    rw [Nat.mul_succ, pow_add, Nat.mod_mul, Nat.mul_comm n c]

theorem sum_weights (c n s : Nat) (hc : 0 < c) (hn : 0 < n) (hs : s < 2 ^ (c * n)) :
    ((List.range n).map (fun j => 2 ^ (c * j) * weight c (j * c) s)).sum = s := by
  by_cases h1 : s = 1
  · obtain ⟨m, rfl⟩ := Nat.exists_eq_succ_of_ne_zero (by omega : n ≠ 0)
    subst h1
    rw [Nat.succ_eq_add_one, List.range_succ_eq_map, List.map_cons, List.sum_cons, List.map_map]
    have : ∀ j ∈ List.range m, ((fun j => 2 ^ (c * j) * weight c (j * c) 1) ∘ Nat.succ) j = 0 := by
      intro j _
      simp [weight]; omega
    rw [List.map_congr_left this]
    simp [weight]
  · have : ∀ j ∈ List.range n, 2 ^ (c * j) * weight c (j * c) s = 2 ^ (c * j) * (s / 2 ^ (j * c) % 2 ^ c) := by
      intro j _; rw [weight, if_neg h1]
    rw [List.map_congr_left this, sum_digits, Nat.mod_eq_of_lt hs]

theorem sum_swap {α : Type} (n : Nat) (es : List α) (f : Nat → α → G) :
    ((List.range n).map (fun j => (es.map (f j)).sum)).sum = (es.map (fun e => ((List.range n).map (fun j => f j e)).sum)).sum := by
  induction es with
  | nil => simp
  | cons e es ih =>
    simp only [List.map_cons, List.sum_cons]
    rw [List.sum_map_add, ih]

theorem sum_nsmul_list {α : Type} (l : List α) (k : α → Nat) (g : G) : (l.map (fun a => k a • g)).sum = (l.map k).sum • g := by
  induction l with
  | nil => simp
  | cons a l ih => simp only [List.map_cons, List.sum_cons, ih, add_smul]

theorem mapM_some {α β : Type} (f : α → Option β) (g : α → β) (l : List α) (h : ∀ a ∈ l, f a = some (g a)) :
    l.mapM f = some (l.map g) := by
  induction l with
  | nil => rfl
  | cons a l ih =>
    rw [List.mapM_cons, h a List.mem_cons_self, ih (fun a ha => h a (List.mem_cons_of_mem _ ha))]; rfl

end windows

theorem bucket_map {α β : Type} (f : α → β) (c start d : Nat) (es : List (Nat × α)) :
    bucket c start d (es.map (fun e => (e.1, f e.2))) = (bucket c start d es).map f := by
  unfold bucket
  rw [List.filter_map, List.map_map, List.map_map]
  rfl

theorem windowBits_pos (n : Nat) : 0 < windowBits n := by
  unfold windowBits lnWithoutFloats
  split
  · omega
  · have : 9 ≤ Nat.clog 2 n := by
      rw [show 9 = Nat.clog 2 512 by rw [show 512 = 2 ^ 9 by norm_num, Nat.clog_pow 2 9 (by norm_num)]]
      exact Nat.clog_mono_right 2 (by omega)
    omega

theorem windowBits_le (n : Nat) (hn : n ≤ 2 ^ 64) : windowBits n ≤ 64 := by
  unfold windowBits lnWithoutFloats
  split
  · omega
  · have : Nat.clog 2 n ≤ 64 := by
      rw [← Nat.clog_pow 2 64 (by norm_num)]
      exact Nat.clog_mono_right 2 hn
    omega

/-! ### C69 -/

section main
variable {F : Type} [Field F] [DecidableEq F] {W : WeierstrassCurve.Affine F}

/-- the entries with a scalar other than zero -/
def nonzero {α : Type} (scalars : List Nat) (bases : List α) : List (Nat × α) :=
  (scalars.zip bases).filter (fun e => decide (e.1 ≠ 0))

/-- the number of windows -/
def windows (bits c : Nat) : Nat := (bits + c - 1) / c

theorem windowSum_eq (h1 : W.a₁ = 0) (h2 : W.a₂ = 0) (h3 : W.a₃ = 0) (add : W.Point → Aff F → W.Point) (hadd : MixedOk W add)
    (c start : Nat) (hc : c ≤ 64) (es : List (Nat × Aff F)) (h0 : ∀ e ∈ es, e.1 ≠ 0) (hes : ∀ e ∈ es, Good W e.2)
    (hg : ∀ d < 2 ^ c, Generic ((bucket c start d es).map (point W))) :
    windowSum add c es start = some ((es.map (fun e => weight c start e.1 • point W e.2)).sum) := by
  have hv : ∀ d < 2 ^ c, value add (bucket c start d es) = (bucket c start d (es.map (fun e => (e.1, point W e.2)))).sum := by
    intro d hd
    rw [bucket_map]
    refine value_eq h1 h2 h3 add hadd _ ?_ (hg d hd)
    intro a ha
    obtain ⟨e, he, rfl⟩ := List.mem_map.mp ha
    exact hes e (List.mem_of_mem_filter he)
  unfold windowSum
  rw [reduceBuckets_eq, buckets_eq c start hc, List.map_map]
  obtain ⟨m, hm⟩ : ∃ m, 2 ^ c = m + 1 := ⟨2 ^ c - 1, by have := Nat.one_le_two_pow (n := c); omega⟩
  have hl : (List.range (2 ^ c)).map (value add ∘ fun d => bucket c start d es) =
      (List.range (2 ^ c)).map (fun d => (bucket c start d (es.map (fun e => (e.1, point W e.2)))).sum) :=
    List.map_congr_left fun d hd => hv d (List.mem_range.mp hd)
  rw [hl, hm, List.range_succ_eq_map, List.map_cons, List.map_map]
  have := running_range m ((fun d => (bucket c start d (es.map (fun e => (e.1, point W e.2)))).sum) ∘ Nat.succ)
    ((bucket c start 0 (es.map (fun e => (e.1, point W e.2)))).sum)
  simp only [this]
  have hb := sum_buckets c start (fun e => e.2) (fun _ => rfl) (es.map (fun e => (e.1, point W e.2)))
    (by intro e he; obtain ⟨e', he', rfl⟩ := List.mem_map.mp he; exact h0 e' he')
  rw [hm, Nat.add_sub_cancel] at hb
  simp only [Function.comp_apply, Nat.succ_eq_add_one]
  rw [hb, List.map_map]
  rfl

/-- C69: the multi-exponentiation of polynomial commitments is the sum of the products, for curve points and scalars of the
right size, when no bucket of any window leads to a pair of neighbours that are equal, opposite or zero.  It cannot be proved
without the last condition: see `C69_opposite_points` and `C69_equal_points`. -/
theorem C69_msm_partial (h1 : W.a₁ = 0) (h2 : W.a₂ = 0) (h3 : W.a₃ = 0) (add : W.Point → Aff F → W.Point) (hadd : MixedOk W add)
    (bits : Nat) (hbits : 0 < bits) (bases : List (Aff F)) (scalars : List Nat) (hgood : ∀ a ∈ bases, Good W a)
    (hs : ∀ s ∈ scalars, s < 2 ^ bits) (hlen : bases.length ≤ 2 ^ 64)
    (hg : ∀ j < windows bits (windowBits (nonzero scalars bases).length), ∀ d < 2 ^ windowBits (nonzero scalars bases).length,
      Generic ((bucket (windowBits (nonzero scalars bases).length) (j * windowBits (nonzero scalars bases).length) d
      (nonzero scalars bases)).map (point W))) :
    msmUnsafe add bits bases scalars = some (sumOfProducts W scalars bases) := by
  unfold msmUnsafe
  simp only [show (scalars.zip bases).filter (fun e => decide (e.1 ≠ 0)) = nonzero scalars bases from rfl]
  rw [show (bits + windowBits (nonzero scalars bases).length - 1) / windowBits (nonzero scalars bases).length =
    windows bits (windowBits (nonzero scalars bases).length) from rfl]
  have hnlen : (nonzero scalars bases).length ≤ 2 ^ 64 := by
    refine le_trans (List.length_filter_le _ _) ?_
    rw [List.length_zip]; omega
  have hcpos := windowBits_pos (nonzero scalars bases).length
  have hcle := windowBits_le _ hnlen
  have hsum : sumOfProducts W scalars bases = ((nonzero scalars bases).map (fun e => e.1 • point W e.2)).sum := by
    unfold sumOfProducts nonzero
    rw [← List.map_uncurry_zip_eq_zipWith]
    induction scalars.zip bases with
    | nil => rfl
    | cons e l ih =>
      rw [List.map_cons, List.sum_cons, ih, List.filter_cons]
      by_cases h : e.1 = 0
      · simp [h, Function.uncurry]
      · simp [h, Function.uncurry]
  have h0 : ∀ e ∈ nonzero scalars bases, e.1 ≠ 0 := by
    intro e he; simpa using (List.mem_filter.mp he).2
  have hgood' : ∀ e ∈ nonzero scalars bases, Good W e.2 := by
    intro e he
    exact hgood _ (List.of_mem_zip (List.mem_of_mem_filter he)).2
  have hs' : ∀ e ∈ nonzero scalars bases, e.1 < 2 ^ bits := by
    intro e he
    exact hs _ (List.of_mem_zip (List.mem_of_mem_filter he)).1
  rw [hsum]
  generalize nonzero scalars bases = es at *
  generalize windowBits es.length = c at *
  have hw : bits ≤ c * windows bits c := by
    unfold windows
    have := Nat.div_add_mod (bits + c - 1) c
    have := Nat.mod_lt (bits + c - 1) hcpos
    omega
  have hwpos : 0 < windows bits c := by
    rcases Nat.eq_zero_or_pos (windows bits c) with h | h
    · rw [h] at hw; omega
    · exact h
  rw [mapM_some _ (fun start => ((es.map (fun e => weight c start e.1 • point W e.2)).sum))]
  swap
  · intro a ha
    obtain ⟨j, hj, rfl⟩ := List.mem_map.mp ha
    exact windowSum_eq h1 h2 h3 add hadd c _ hcle es h0 hgood' (hg j (List.mem_range.mp hj))
  obtain ⟨m, hm⟩ := Nat.exists_eq_succ_of_ne_zero (by omega : windows bits c ≠ 0)
  rw [List.map_map, hm, Nat.succ_eq_add_one, List.range_succ_eq_map, List.map_cons, List.map_map]
  have hfold := fold_windows c m (fun j => (es.map (fun e => weight c (j * c) e.1 • point W e.2)).sum)
  simp only [Option.bind_eq_bind, Option.bind_some, Function.comp_def, Nat.succ_eq_add_one] at hfold ⊢
  rw [hfold, Option.some.injEq]
  have hall : ((List.range (windows bits c)).map (fun j => 2 ^ (c * j) • (es.map (fun e => weight c (j * c) e.1 • point W e.2)).sum)).sum =
      (es.map (fun e => e.1 • point W e.2)).sum := by
    have : ∀ j ∈ List.range (windows bits c), 2 ^ (c * j) • (es.map (fun e => weight c (j * c) e.1 • point W e.2)).sum =
        (es.map (fun e => (2 ^ (c * j) * weight c (j * c) e.1) • point W e.2)).sum := by
      intro j _
      rw [List.smul_sum, List.map_map]
      refine congrArg List.sum (List.map_congr_left fun e _ => ?_)
      simp only [Function.comp_apply, mul_smul]
    rw [List.map_congr_left this, sum_swap]
    refine congrArg List.sum (List.map_congr_left fun e he => ?_)
    rw [sum_nsmul_list, sum_weights c _ _ hcpos hwpos (lt_of_lt_of_le (hs' e he) (Nat.pow_le_pow_right (by omega) hw))]
  rw [← hall, hm, Nat.succ_eq_add_one, List.range_succ_eq_map, List.map_cons, List.sum_cons, List.map_map]
  simp only [Function.comp_def, Nat.succ_eq_add_one, Nat.mul_zero, pow_zero, one_smul, Nat.zero_mul]

theorem generic_of_small {G : Type} [AddCommGroup G] (l : List G) (hl : l.length ≤ threshold) : Generic l := by
  intro k hk
  have : ∀ k, ((halveWith (· + ·))^[k] l).length ≤ threshold := by
    intro k
    induction k with
    | zero => exact hl
    | succ k ih => rw [Function.iterate_succ_apply', halveWith_length]; unfold threshold at *; omega
  exact absurd hk (not_lt.mpr (this k))

/-- C69, small inputs: with at most sixteen scalars other than zero the result is always right -/
theorem C69_msm_small (h1 : W.a₁ = 0) (h2 : W.a₂ = 0) (h3 : W.a₃ = 0) (add : W.Point → Aff F → W.Point) (hadd : MixedOk W add)
    (bits : Nat) (hbits : 0 < bits) (bases : List (Aff F)) (scalars : List Nat) (hgood : ∀ a ∈ bases, Good W a)
    (hs : ∀ s ∈ scalars, s < 2 ^ bits) (hlen : bases.length ≤ 2 ^ 64)
    (hsmall : (scalars.filter (fun s => decide (s ≠ 0))).length ≤ 16) :
    msmUnsafe add bits bases scalars = some (sumOfProducts W scalars bases) := by
  refine C69_msm_partial h1 h2 h3 add hadd bits hbits bases scalars hgood hs hlen fun _ _ _ _ => generic_of_small _ ?_
  rw [List.length_map, bucket, List.length_map]
  refine le_trans (List.length_filter_le _ _) (le_trans ?_ hsmall)
  unfold nonzero
  rename_i hj d hd
  clear hgood hs hlen hsmall hj hd
  induction scalars generalizing bases with
  | nil => simp
  | cons s ss ih =>
    cases bases with
    | nil => simp
    | cons b bs =>
      rw [List.zip_cons_cons, List.filter_cons, List.filter_cons]
      have := ih bs
      by_cases h : s = 0 <;> simp [h] at this ⊢ <;> omega

end main

end Verif.Msm
