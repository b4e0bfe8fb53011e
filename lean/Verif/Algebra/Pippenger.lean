import Mathlib.Algebra.Module.Basic
import Mathlib.Algebra.BigOperators.Group.List.Basic
import Mathlib.Algebra.Field.ZMod
import Mathlib.Tactic.Abel
import Mathlib.Tactic.Module
import Mathlib.Tactic.NormNum.Prime
import Verif.Algebra.Radix

/-!
C32: multi-exponentiation by buckets (`pippenger`) and the default `Group::multi_exp`.
-/

namespace Verif.Pippenger

open Verif.Radix

variable {F G : Type} [Field F] [DecidableEq F] [AddCommGroup G] [Module F G]

/-! ### Model -/

/-- what the code asks of a scalar type: its 64-bit limbs (`get_little_endian_u64`) -/
structure Limbs (F : Type) [Field F] where
  limbs : F → List Nat

/-- `get_little_endian_u64` returns 64-bit limbs of a representative of the scalar that is zero for zero only -/
structure Limbs.Lawful (L : Limbs F) : Prop where
  lt : ∀ s, ∀ d ∈ L.limbs s, d < 2 ^ 64
  val : ∀ s, ((Nat.ofDigits (2 ^ 64) (L.limbs s) : Nat) : F) = s
  zero : ∀ s, s = 0 ↔ Nat.ofDigits (2 ^ 64) (L.limbs s) = 0

/-- one element into its bucket, algebra/src/traits.rs:287-298; `none` is an index out of bounds -/
def bucketStep (index : Nat) (buckets : List G) (p : List Int × G) : Option (List G) :=
  match p.1[index]? with
  | none => some buckets
  | some digit =>
    if digit > 0 then
      let b := (digit - 1).toNat
      if b < buckets.length then some (buckets.modify b (· + p.2)) else none
    else if digit < 0 then
      let b := (-(digit + 1)).toNat
      if b < buckets.length then some (buckets.modify b (· - p.2)) else none
    else some buckets

/-- the running sums of algebra/src/traits.rs:300-305, from the last bucket to the first -/
def runningSum (buckets : List G) : Option G :=
  match buckets.reverse with
  | [] => none
  | top :: rest => some (rest.foldl (fun (st : G × G) b => (st.1 + b, st.2 + (st.1 + b))) (top, top)).2

/-- one column, algebra/src/traits.rs:281-307; the buckets are emptied first -/
def column (half : Nat) (digitsVec : List (List Int)) (elems : List G) (index : Nat) : Option G := do
  let buckets ← (digitsVec.zip elems).foldlM (bucketStep index) (List.replicate half 0)
  runningSum buckets

/-- algebra/src/traits.rs:259-265 -/
def windowSize (size : Nat) : Nat := if size < 500 then 6 else if size < 800 then 7 else 8

/-- models algebra/src/traits.rs:252-316; `fuel` bounds the rounds of the recoding loop (see `scalarToRadix`); `none` is
an error, a panic or a loop that has not ended -/
def pippenger (L : Limbs F) (fuel : Nat) (scalars : List F) (elems : List G) : Option G := do
  let size := scalars.length
  if size = 0 then none
  else do
    let w := windowSize size
    let digitsVec ← scalars.mapM (fun s => scalarToRadix fuel (decide (s = 0)) (L.limbs s) w)
    let digitsCount := digitsVec.foldl (fun m d => if d.length > m then d.length else m) 0
    let cols ← (List.range digitsCount).reverse.mapM (column (2 ^ w / 2) digitsVec elems)
    match cols with
    | [] => none
    | hi :: rest => some (rest.foldl (fun total p => ((2 ^ w : Nat) : F) • total + p) hi)

/-- models the default `multi_exp`, algebra/src/traits.rs:167-173 -/
def multiExp (L : Limbs F) (fuel : Nat) (scalars : List F) (points : List G) : Option G :=
  if scalars.isEmpty then some 0 else pippenger L fuel scalars points

/-! ### Specification -/

/-- the sum of the products, position by position -/
def sumOfProducts (scalars : List F) (points : List G) : G := (List.zipWith (fun s p => s • p) scalars points).sum

/-! ### Lemmas -/

/-- `1·b₀ + 2·b₁ + 3·b₂ + …`, each bucket counted in its own suffix sums -/
def wsum : List G → G
  | [] => 0
  | b :: bs => (b :: bs).sum + wsum bs

theorem wsum_append (a : List G) (b : G) : wsum (a ++ [b]) = wsum a + (a.length + 1) • b := by
  induction a with
  | nil => simp [wsum]
  | cons x a ih =>
    simp only [List.cons_append, wsum, ih, List.sum_cons, List.sum_append, List.sum_nil, List.length_cons]
    module

theorem wsum_modify (l : List G) (k : Nat) (g : G) (hk : k < l.length) :
    wsum (l.modify k (· + g)) = wsum l + (k + 1) • g := by
  have hs : ∀ (l : List G) (k : Nat), k < l.length → (l.modify k (· + g)).sum = l.sum + g := by
    intro l
    induction l with
    | nil => intro k hk; simp at hk
    | cons x l ih =>
      intro k hk
      cases k with
      | zero => simp [List.modify_zero_cons]; abel
      | succ k => simp only [List.modify_succ_cons, List.sum_cons]; rw [ih k (by simpa using hk)]; abel
  induction l generalizing k with
  | nil => simp at hk
  | cons x l ih =>
    cases k with
    | zero => simp only [List.modify_zero_cons, wsum, List.sum_cons]; module
    | succ k =>
      have hk' : k < l.length := by simpa using hk
      simp only [List.modify_succ_cons, wsum, List.sum_cons]
      rw [ih k hk', hs l k hk']
      module

theorem runningSum_eq (l : List G) (hl : l ≠ []) : runningSum l = some (wsum l) := by
  suffices H : ∀ (r : List G) (inter sum : G) (t : List G), inter = t.sum → sum = wsum t →
      (r.foldl (fun (st : G × G) b => (st.1 + b, st.2 + (st.1 + b))) (inter, sum)).2 = wsum (r.reverse ++ t) by
    unfold runningSum
    rcases List.eq_nil_or_concat l with rfl | ⟨t, b, rfl⟩
    · exact absurd rfl hl
    · simp only [List.concat_eq_append, List.reverse_append, List.reverse_singleton, List.singleton_append]
      rw [H t.reverse b b [b] (by simp) (by simp [wsum]), List.reverse_reverse]
  intro r
  induction r with
  | nil => intro i s t hi hs; simpa using hs
  | cons b r ih =>
    intro i s t hi hs
    rw [List.foldl_cons, ih (i + b) (s + (i + b)) (b :: t) (by rw [hi, List.sum_cons]; abel)
      (by simp only [wsum, List.sum_cons]; rw [hi, hs]; abel)]
    simp

theorem wsum_replicate (n : Nat) : wsum (List.replicate n (0 : G)) = 0 := by
  induction n with
  | zero => rfl
  | succ n ih => rw [List.replicate_succ, wsum, ih]; simp

/-- the digit at a position, zero beyond the end -/
def digitAt (ds : List Int) (k : Nat) : Int := (ds[k]?).getD 0

theorem bucketStep_spec (index half : Nat) (buckets : List G) (p : List Int × G) (hlen : buckets.length = half)
    (hd : ∀ d ∈ p.1, -(half : Int) ≤ d ∧ d ≤ half) :
    ∃ b', bucketStep index buckets p = some b' ∧ b'.length = half ∧ wsum b' = wsum buckets + digitAt p.1 index • p.2 := by
  unfold bucketStep digitAt
  cases h : p.1[index]? with
  | none => exact ⟨buckets, rfl, hlen, by simp⟩
  | some digit =>
    have hb := hd digit (List.mem_of_getElem? h)
    simp only [Option.getD_some]
    by_cases hpos : digit > 0
    · rw [if_pos hpos, if_pos (by omega)]
      refine ⟨_, rfl, by rw [List.length_modify, hlen], ?_⟩
      rw [wsum_modify _ _ _ (by omega)]
      have : ((digit - 1).toNat + 1 : Nat) • p.2 = digit • p.2 := by
        rw [← natCast_zsmul]; congr 1; omega
      rw [this]
    · rw [if_neg hpos]
      by_cases hneg : digit < 0
      · rw [if_pos hneg, if_pos (by omega)]
        refine ⟨_, rfl, by rw [List.length_modify, hlen], ?_⟩
        have e : (fun x : G => x - p.2) = (· + (-p.2)) := by funext x; abel
        rw [e, wsum_modify _ _ _ (by omega)]
        have : ((-(digit + 1)).toNat + 1 : Nat) • (-p.2) = digit • p.2 := by
          rw [← natCast_zsmul, smul_neg, ← neg_smul]; congr 1; omega
        rw [this]
      · rw [if_neg hneg]
        exact ⟨buckets, rfl, hlen, by rw [show digit = 0 by omega]; simp⟩

theorem column_spec (half : Nat) (hh : 0 < half) (digitsVec : List (List Int)) (elems : List G) (index : Nat)
    (hd : ∀ ds ∈ digitsVec, ∀ d ∈ ds, -(half : Int) ≤ d ∧ d ≤ half) :
    column half digitsVec elems index =
      some (((digitsVec.zip elems).map (fun p => digitAt p.1 index • p.2)).sum) := by
  have key : ∀ (l : List (List Int × G)) (b : List G), (∀ p ∈ l, ∀ d ∈ p.1, -(half : Int) ≤ d ∧ d ≤ half) →
      b.length = half → ∃ b', l.foldlM (bucketStep index) b = some b' ∧ b'.length = half ∧
        wsum b' = wsum b + (l.map (fun p => digitAt p.1 index • p.2)).sum := by
    intro l
    induction l with
    | nil => intro b _ hb; exact ⟨b, rfl, hb, by simp⟩
    | cons p l ih =>
      intro b hl hb
      obtain ⟨b1, e1, l1, w1⟩ := bucketStep_spec index half b p hb (hl p List.mem_cons_self)
      obtain ⟨b2, e2, l2, w2⟩ := ih b1 (fun q hq => hl q (List.mem_cons_of_mem _ hq)) l1
      refine ⟨b2, by rw [List.foldlM_cons, e1]; exact e2, l2, ?_⟩
      rw [w2, w1, List.map_cons, List.sum_cons]; abel
  obtain ⟨b, e, hl, hw⟩ := key (digitsVec.zip elems) (List.replicate half 0)
    (fun p hp => hd p.1 (List.of_mem_zip (a := p.1) (b := p.2) hp).1) (by simp)
  unfold column
  rw [e]
  simp only [Option.bind_eq_bind, Option.bind_some]
  rw [runningSum_eq b (by intro hb; rw [hb] at hl; simp at hl; omega), hw, wsum_replicate, zero_add]

theorem digitsVal_eq_sum (w : Nat) (ds : List Int) (n : Nat) (hn : ds.length ≤ n) :
    digitsVal w ds = ((List.range n).map (fun k => 2 ^ (w * k) * digitAt ds k)).sum := by
  induction ds generalizing n with
  | nil =>
    simp only [digitsVal, digitAt, List.getElem?_nil, Option.getD_none, mul_zero]
    induction n with
    | zero => rfl
    | succ n ih => rw [List.range_succ, List.map_append, List.sum_append, ← ih (by simp)]; simp
  | cons d ds ih =>
    obtain ⟨m, rfl⟩ : ∃ m, n = m + 1 := ⟨n - 1, by simp only [List.length_cons] at hn; omega⟩
    rw [List.range_succ_eq_map, List.map_cons, List.sum_cons, List.map_map, digitsVal,
      ih m (by simpa using hn)]
    have : ((fun k => 2 ^ (w * k) * digitAt (d :: ds) k) ∘ Nat.succ) =
        fun k => (2 : Int) ^ w * (2 ^ (w * k) * digitAt ds k) := by
      funext k
      simp only [Function.comp, digitAt, Nat.succ_eq_add_one, List.getElem?_cons_succ]
      ring
    rw [this, List.sum_map_mul_left]
    simp [digitAt]

/-- Horner evaluation of the columns, high to low -/
theorem horner (w : Nat) (c : Nat → G) (n : Nat) (acc : G) :
    (((List.range n).reverse.map c).foldl (fun total p => ((2 ^ w : Nat) : F) • total + p) acc) =
      ((2 ^ (w * n) : Nat) : F) • acc + ((List.range n).map (fun k => ((2 ^ (w * k) : Nat) : F) • c k)).sum := by
  induction n generalizing acc with
  | zero => simp
  | succ n ih =>
    rw [List.range_succ, List.reverse_append, List.map_append, List.foldl_append]
    simp only [List.reverse_singleton, List.map_cons, List.map_nil, List.foldl_cons, List.foldl_nil]
    rw [ih, List.map_append, List.sum_append, smul_add, smul_smul, ← Nat.cast_mul, ← pow_add]
    rw [show w * n + w = w * (n + 1) by ring]
    simp
    abel

theorem sum_zipWith_comm (n : Nat) (a : Nat → Int) (f : Nat → List Int → Int) (l : List (List Int × G)) :
    ((List.range n).map (fun k => a k • (l.map (fun p => f k p.1 • p.2)).sum)).sum =
      (l.map (fun p => ((List.range n).map (fun k => a k * f k p.1)).sum • p.2)).sum := by
  induction l with
  | nil =>
    simp only [List.map_nil, List.sum_nil, smul_zero]
    induction n with
    | zero => rfl
    | succ n ih => rw [List.range_succ, List.map_append, List.sum_append, ih]; simp
  | cons p l ih =>
    rw [List.map_cons, List.sum_cons, ← ih]
    clear ih
    induction n with
    | zero => simp
    | succ n ih =>
      simp only [List.range_succ, List.map_append, List.sum_append, List.map_cons, List.map_nil, List.sum_cons, List.sum_nil,
        add_zero] at ih ⊢
      rw [ih]
      module

theorem foldl_max_ge (l : List (List Int)) (m : Nat) :
    m ≤ l.foldl (fun m d => if d.length > m then d.length else m) m ∧
      ∀ d ∈ l, d.length ≤ l.foldl (fun m d => if d.length > m then d.length else m) m := by
  induction l generalizing m with
  | nil => simp
  | cons x l ih =>
    rw [List.foldl_cons]
    obtain ⟨h1, h2⟩ := ih (if x.length > m then x.length else m)
    have hx : x.length ≤ (if x.length > m then x.length else m) ∧ m ≤ (if x.length > m then x.length else m) := by
      split <;> omega
    refine ⟨by omega, fun d hd => ?_⟩
    rcases List.mem_cons.mp hd with rfl | hd
    · omega
    · exact h2 d hd

theorem mapM_some {α β : Type} (f : α → Option β) (g : α → β) (l : List α) (h : ∀ a ∈ l, f a = some (g a)) :
    l.mapM f = some (l.map g) := by
  induction l with
  | nil => rfl
  | cons a l ih =>
    rw [List.mapM_cons, h a List.mem_cons_self, ih (fun a ha => h a (List.mem_cons_of_mem _ ha))]; rfl

theorem mapM_none {α β : Type} (f : α → Option β) (l : List α) (hl : l ≠ []) (h : ∀ a ∈ l, f a = none) :
    l.mapM f = none := by
  cases l with
  | nil => exact absurd rfl hl
  | cons a l => rw [List.mapM_cons, h a List.mem_cons_self]; rfl

/-! ### Properties -/

/-- C32 below eight hundred terms: for a lawful scalar type the bucket method ends and returns the sum of the products,
for all scalars and points (position by position; surplus entries of the longer list are ignored).  Missing for the full
claim: eight hundred terms or more, see `C32_eight_hundred_panics`. -/
theorem C32_multi_exp_partial (L : Limbs F) (hL : L.Lawful) (scalars : List F) (points : List G)
    (hsize : scalars.length < 800) :
    ∃ N, ∀ fuel, N ≤ fuel → multiExp L fuel scalars points = some (sumOfProducts scalars points) := by
  by_cases hne : scalars = []
  · subst hne
    exact ⟨0, fun fuel _ => by simp [multiExp, sumOfProducts]⟩
  have hpos : 0 < scalars.length := List.length_pos_iff.mpr hne
  obtain ⟨w, hw⟩ : ∃ w, windowSize scalars.length = w := ⟨_, rfl⟩
  have hw1 : 1 ≤ w ∧ w ≤ 7 := by
    rw [← hw]; unfold windowSize
    split
    · omega
    · omega
  have hhalf : 2 ^ w / 2 = 2 ^ (w - 1) := by
    obtain ⟨k, rfl⟩ := Nat.exists_eq_add_of_le hw1.1
    rw [show 1 + k - 1 = k by omega, pow_add, pow_one, Nat.mul_div_cancel_left _ (by norm_num)]
  -- enough rounds for every scalar
  have hN : ∃ N, ∀ fuel, N ≤ fuel → ∀ s ∈ scalars, ∃ ds, scalarToRadix fuel (decide (s = 0)) (L.limbs s) w = some ds ∧
      digitsVal w ds = (Nat.ofDigits (2 ^ 64) (L.limbs s) : Nat) ∧
      (∀ d ∈ ds, -(2 ^ (w - 1) : Int) ≤ d ∧ d ≤ 2 ^ (w - 1)) ∧ ds ≠ [] := by
    clear hne hpos hw hsize
    induction scalars with
    | nil => exact ⟨0, fun _ _ s hs => absurd hs (by simp)⟩
    | cons s l ih =>
      obtain ⟨N1, h1⟩ := ih
      obtain ⟨N2, h2⟩ := C31_digits (L.limbs s) (hL.lt s) w hw1.1 hw1.2 (decide (s = 0)) (by simpa using hL.zero s)
      refine ⟨max N1 N2, fun fuel hf t ht => ?_⟩
      rcases List.mem_cons.mp ht with rfl | ht
      · obtain ⟨ds, a, b, c, d, _⟩ := h2 fuel (le_trans (le_max_right _ _) hf)
        exact ⟨ds, a, b, c, d⟩
      · exact h1 fuel (le_trans (le_max_left _ _) hf) t ht
  obtain ⟨N, hN⟩ := hN
  refine ⟨N, fun fuel hf => ?_⟩
  have hN := hN fuel hf
  classical
  let g : F → List Int := fun s => (scalarToRadix fuel (decide (s = 0)) (L.limbs s) w).getD []
  have hg : ∀ s ∈ scalars, scalarToRadix fuel (decide (s = 0)) (L.limbs s) w = some (g s) ∧
      digitsVal w (g s) = (Nat.ofDigits (2 ^ 64) (L.limbs s) : Nat) ∧
      (∀ d ∈ g s, -((2 ^ (w - 1) : Nat) : Int) ≤ d ∧ d ≤ ((2 ^ (w - 1) : Nat) : Int)) ∧ g s ≠ [] := by
    intro s hs
    obtain ⟨ds, a, b, c, d⟩ := hN s hs
    have : g s = ds := by simp only [g, a, Option.getD_some]
    rw [this]
    exact ⟨a, b, by push_cast; exact c, d⟩
  have hdv := mapM_some _ g scalars (fun s hs => (hg s hs).1)
  have hcol := fun index => column_spec (2 ^ (w - 1)) (by positivity) (scalars.map g) points index
    (by intro ds hds
        obtain ⟨s, hs, rfl⟩ := List.mem_map.mp hds
        exact (hg s hs).2.2.1)
  obtain ⟨cnt, hcnt⟩ : ∃ c, (scalars.map g).foldl (fun m d => if d.length > m then d.length else m) 0 = c := ⟨_, rfl⟩
  have hge := (foldl_max_ge (scalars.map g) 0).2
  rw [hcnt] at hge
  have hcpos : 0 < cnt := by
    obtain ⟨s, hs⟩ := List.exists_mem_of_ne_nil _ hne
    have := hge (g s) (List.mem_map_of_mem hs)
    have h' := List.length_pos_iff.mpr (hg s hs).2.2.2
    omega
  have hcols := mapM_some _ _ (List.range cnt).reverse (fun i _ => hcol i)
  obtain ⟨m, rfl⟩ : ∃ m, cnt = m + 1 := ⟨cnt - 1, by omega⟩
  unfold multiExp pippenger
  rw [if_neg (by simpa using hne)]
  simp only [hw, hhalf]
  rw [if_neg (by omega), hdv]
  simp only [Option.bind_eq_bind, Option.bind_some, hcnt]
  rw [hcols]
  simp only [Option.bind_some]
  set c : Nat → G := fun i => (((scalars.map g).zip points).map (fun p => digitAt p.1 i • p.2)).sum with hc
  have hsplit : (List.range (m + 1)).reverse.map c = c m :: (List.range m).reverse.map c := by
    rw [List.range_succ, List.reverse_append]; rfl
  rw [hsplit]
  simp only
  rw [horner]
  congr 1
  have hlast : ((2 ^ (w * m) : Nat) : F) • c m + ((List.range m).map (fun k => ((2 ^ (w * k) : Nat) : F) • c k)).sum =
      ((List.range (m + 1)).map (fun k => ((2 : Int) ^ (w * k)) • c k)).sum := by
    rw [List.range_succ, List.map_append, List.sum_append]
    simp only [List.map_cons, List.map_nil, List.sum_cons, List.sum_nil, add_zero]
    have e : ∀ k, ((2 ^ (w * k) : Nat) : F) • c k = ((2 : Int) ^ (w * k)) • c k := by
      intro k
      rw [Nat.cast_smul_eq_nsmul, ← natCast_zsmul]; push_cast; rfl
    simp only [e]
    rw [add_comm]
  rw [hlast, hc, sum_zipWith_comm (m + 1) (fun k => (2 : Int) ^ (w * k)) (fun k ds => digitAt ds k)]
  -- digit sums are the scalars
  have hfin : ∀ (l : List F) (ps : List G), (∀ s ∈ l, s ∈ scalars) →
      (((l.map g).zip ps).map (fun p => ((List.range (m + 1)).map (fun k => (2 : Int) ^ (w * k) * digitAt p.1 k)).sum • p.2)).sum
        = sumOfProducts l ps := by
    intro l
    induction l with
    | nil => intro ps _; simp [sumOfProducts]
    | cons s l ih =>
      intro ps hl
      cases ps with
      | nil => simp [sumOfProducts]
      | cons p ps =>
        have hs := hl s List.mem_cons_self
        have ih' := ih ps (fun t ht => hl t (List.mem_cons_of_mem _ ht))
        simp only [List.map_cons, List.zip_cons_cons, List.sum_cons, sumOfProducts, List.zipWith_cons_cons] at ih' ⊢
        rw [ih']
        congr 1
        rw [← digitsVal_eq_sum w (g s) (m + 1) (hge (g s) (List.mem_map_of_mem hs)), (hg s hs).2.1, natCast_zsmul,
          ← Nat.cast_smul_eq_nsmul F, hL.val]
  exact hfin scalars points (fun s hs => hs)

/-- C32 is violated from eight hundred terms on: the window size becomes eight, which the recoding refuses by its
assertion; no value is ever returned. -/
theorem C32_eight_hundred_panics (L : Limbs F) (fuel : Nat) (scalars : List F) (points : List G)
    (hsize : 800 ≤ scalars.length) : multiExp L fuel scalars points = none := by
  have hne : scalars ≠ [] := by rintro rfl; simp at hsize
  have hw : windowSize scalars.length = 8 := by
    unfold windowSize; rw [if_neg (by omega), if_neg (by omega)]
  unfold multiExp pippenger
  rw [if_neg (by simpa using hne)]
  simp only [hw]
  rw [if_neg (by omega), mapM_none _ scalars hne (fun s _ => C31_window_limit fuel _ _ 8 (by omega))]
  rfl

/-- a lawful instance: one limb holding the representative -/
instance : Fact (Nat.Prime 101) := ⟨by norm_num⟩

def toyLimbs : Limbs (ZMod 101) := ⟨fun s => [s.val]⟩

theorem toyLimbs_lawful : toyLimbs.Lawful where
  lt := by
    intro s d hd
    simp only [toyLimbs, List.mem_singleton] at hd
    subst hd
    exact lt_trans (ZMod.val_lt s) (by norm_num)
  val := by intro s; simp [toyLimbs]
  zero := by intro s; simp [toyLimbs]

example : multiExp toyLimbs 80 [(70 : ZMod 101), 99, 0] [(2 : ZMod 101), 5, 7] =
    some (sumOfProducts [(70 : ZMod 101), 99, 0] [(2 : ZMod 101), 5, 7]) := by decide +kernel

end Verif.Pippenger
