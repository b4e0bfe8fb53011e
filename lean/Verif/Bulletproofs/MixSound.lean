import Verif.Bulletproofs.Mix

/-! Soundness of the mixing circuit (C26). -/

namespace Verif.R1cs

open Verif.Plonk (ScalarRepr)
open Polynomial

section
variable {F : Type} [Field F]

/-! ### the shuffle argument -/

theorem foldl_mul_sub (rest : List F) (x ch : F) :
    rest.foldl (fun prev v => prev * (v - ch)) x = x * (rest.map fun v => v - ch).prod := by
  induction rest generalizing x with
  | nil => simp
  | cons v rest ih => simp [ih, mul_assoc]

theorem shuffleProduct_eq (l : List F) (h : 2 ≤ l.length) (ch : F) :
    shuffleProduct l ch = .ok (l.map fun v => v - ch).prod := by
  unfold shuffleProduct
  have hr : (l.map fun v => v - ch).prod = (l.reverse.map fun v => v - ch).prod :=
    ((l.reverse_perm.symm).map _).prod_eq
  have hl : l.reverse.length = l.length := l.length_reverse
  rw [hr]
  match hm : l.reverse, hl with
  | [], hl => simp at hl; omega
  | [a], hl => simp at hl; omega
  | a :: b :: rest, hl =>
    simp only [foldl_mul_sub, List.map_cons, List.prod_cons]
    rw [mul_assoc]

theorem listShuffle_eq (x y : List F) (hl : x.length = y.length) (h2 : 2 ≤ x.length) (ch : F) :
    listShuffle x y ch = .ok [(x.map fun v => v - ch).prod - (y.map fun v => v - ch).prod] := by
  unfold listShuffle
  rw [if_neg (by simpa using hl)]
  match x, y, hl, h2 with
  | a :: b :: x, c :: d :: y, hl, h2 =>
    simp only
    rw [shuffleProduct_eq _ h2, shuffleProduct_eq _ (by omega)]
    rfl

/-- C26: `list_shuffle` for lists of any length: its constraints hold for a challenge exactly if the lists are of one length and the products
of the differences to the challenge agree; so they do for a permutation. -/
theorem C26_list_shuffle (x y : List F) (ch : F) :
    ((∃ zs, listShuffle x y ch = .ok zs ∧ ∀ z ∈ zs, z = 0) ↔
      x.length = y.length ∧ (x.map fun v => v - ch).prod = (y.map fun v => v - ch).prod) ∧
    (x.Perm y → ∃ zs, listShuffle x y ch = .ok zs ∧ ∀ z ∈ zs, z = 0) := by
  have h : (∃ zs, listShuffle x y ch = .ok zs ∧ ∀ z ∈ zs, z = 0) ↔
      x.length = y.length ∧ (x.map fun v => v - ch).prod = (y.map fun v => v - ch).prod := by
    by_cases hl : x.length = y.length
    · by_cases h2 : 2 ≤ x.length
      · rw [listShuffle_eq x y hl h2]
        simp [hl, sub_eq_zero]
      · match x, y, hl, h2 with
        | [], [], _, _ => simp [listShuffle]
        | [a], [b], _, _ => simp [listShuffle, sub_eq_zero, eq_comm]
        | _ :: _ :: _, _, _, h2 => simp at h2
    · constructor
      · rintro ⟨zs, h, -⟩
        unfold listShuffle at h
        rw [if_pos hl] at h
        cases h
      · exact fun h => absurd h.1 hl
  exact ⟨h, fun hp => h.mpr ⟨hp.length_eq, (hp.map _).prod_eq⟩⟩

example : ((7 : ℚ) :: [8, 9]).Perm [9, 7, 8] := by decide

theorem shuffleClosure_eq (a b : List (MixVar F)) (hl : a.length = b.length) (h2 : 2 ≤ a.length) (ch : Chal F) :
    shuffleClosure a b ch = .ok [((a.map fun p => p.1 + ch.1 * p.2).map fun v => v - ch.2.1).prod -
      ((b.map fun p => p.1 + ch.1 * p.2).map fun v => v - ch.2.1).prod] := by
  unfold shuffleClosure
  have e1 : (a.zip b).map (fun p => p.1.1 + ch.1 * p.1.2) = a.map fun p => p.1 + ch.1 * p.2 := by
    conv_rhs => rw [← List.map_fst_zip (l₁ := a) (l₂ := b) hl.le, List.map_map]
    rfl
  have e2 : (a.zip b).map (fun p => p.2.1 + ch.1 * p.2.2) = b.map fun p => p.1 + ch.1 * p.2 := by
    conv_rhs => rw [← List.map_snd_zip (l₁ := a) (l₂ := b) hl.ge, List.map_map]
    rfl
  simp only [e1, e2]
  exact listShuffle_eq _ _ (by simpa using hl) (by simpa using h2) _

theorem perm_of_map {α β : Type} [DecidableEq α] [DecidableEq β] (f : α → β) (a b : List α) (hl : a.length = b.length)
    (hinj : ∀ p ∈ a, ∀ q ∈ b, f p = f q → p = q) (h : (a.map f).Perm (b.map f)) : a.Perm b := by
  refine List.Subperm.perm_of_length_le (List.subperm_ext_iff.2 fun x hx => ?_) hl.ge
  calc a.count x ≤ (a.map f).count (f x) := List.count_le_count_map
    _ = (b.map f).count (f x) := h.count_eq _
    _ ≤ b.count x := by
      rw [List.count_eq_countP, List.count_eq_countP, List.countP_map]
      refine List.countP_mono_left fun q hq hfq => ?_
      simp only [Function.comp, beq_iff_eq] at hfq ⊢
      exact (hinj x hx q hq hfq.symm).symm

/-- the monic polynomial with the given roots -/
noncomputable def rootPoly (u : List F) : F[X] := (u.map fun v => X - C v).prod

theorem rootPoly_eval (u : List F) (x : F) : (rootPoly u).eval x = (-1) ^ u.length * (u.map fun v => v - x).prod := by
  induction u with
  | nil => simp [rootPoly]
  | cons v u ih =>
    have : rootPoly (v :: u) = (X - C v) * rootPoly u := by simp [rootPoly]
    rw [this, eval_mul, ih]
    simp only [eval_sub, eval_X, eval_C, List.length_cons, List.map_cons, List.prod_cons, pow_succ]
    ring

theorem rootPoly_natDegree (u : List F) : (rootPoly u).natDegree = u.length := by
  have h := natDegree_multiset_prod_X_sub_C_eq_card (u : Multiset F)
  simpa [rootPoly] using h

theorem rootPoly_inj {u w : List F} (h : rootPoly u = rootPoly w) : u.Perm w := by
  have h1 := roots_multiset_prod_X_sub_C (u : Multiset F)
  have h2 := roots_multiset_prod_X_sub_C (w : Multiset F)
  simp only [Multiset.map_coe, Multiset.prod_coe] at h1 h2
  have e : (u : Multiset F) = (w : Multiset F) := by
    rw [← h1, ← h2]
    exact congrArg roots h
  exact Multiset.coe_eq_coe.1 e

/-- if two lists of equal length are not permutations of each other, the products agree at no more than `l` points -/
theorem shuffle_few_points [DecidableEq F] (u w : List F) (hl : u.length = w.length) (hn : ¬ u.Perm w) :
    ∃ bad : Finset F, bad.card ≤ u.length ∧
      ∀ x, (u.map fun v => v - x).prod - (w.map fun v => v - x).prod = 0 → x ∈ bad := by
  have hne : rootPoly u - rootPoly w ≠ 0 := fun h => hn (rootPoly_inj (sub_eq_zero.1 h))
  refine ⟨(rootPoly u - rootPoly w).roots.toFinset, ?_, fun x hx => ?_⟩
  · calc (rootPoly u - rootPoly w).roots.toFinset.card ≤ Multiset.card (rootPoly u - rootPoly w).roots :=
        Multiset.toFinset_card_le _
      _ ≤ (rootPoly u - rootPoly w).natDegree := card_roots' _
      _ ≤ max (rootPoly u).natDegree (rootPoly w).natDegree := natDegree_sub_le _ _
      _ = u.length := by rw [rootPoly_natDegree, rootPoly_natDegree, hl, max_self]
  · rw [Multiset.mem_toFinset, mem_roots hne, IsRoot.def, eval_sub, rootPoly_eval, rootPoly_eval, hl]
    linear_combination (-1) ^ w.length * hx

/-- the shuffle gadget: lists that are not permutations of each other pass for few challenges -/
theorem few_shuffle [Fintype F] (a b : List (MixVar F)) (hl : a.length = b.length) (h2 : 2 ≤ a.length)
    (hn : ¬ a.Perm b) : Few (a.length ^ 2 + a.length) (shuffleClosure a b) := by
  classical
  let fold : F → MixVar F → F := fun c p => p.1 + c * p.2
  let bad1 : Finset F := ((a.flatMap fun p => b.map fun q => (q.1 - p.1) / (p.2 - q.2))).toFinset
  have hb1 : bad1.card ≤ a.length ^ 2 := by
    refine (List.toFinset_card_le _).trans ?_
    rw [List.length_flatMap]
    simp only [List.length_map, List.map_const', List.sum_replicate, smul_eq_mul]
    rw [← hl, sq]
  have hperm : ∀ c, c ∉ bad1 → ¬ (a.map (fold c)).Perm (b.map (fold c)) := by
    intro c hc hp
    refine hn (perm_of_map (fold c) a b hl (fun p hp q hq hpq => ?_) hp)
    by_contra hne
    simp only [fold] at hpq
    have ht : p.2 - q.2 ≠ 0 := by
      intro h0
      have h0 : p.2 = q.2 := sub_eq_zero.1 h0
      rw [h0] at hpq
      exact hne (Prod.ext (by linear_combination hpq) h0)
    refine hc ?_
    simp only [bad1, List.mem_toFinset, List.mem_flatMap, List.mem_map]
    refine ⟨p, hp, q, hq, ?_⟩
    rw [div_eq_iff ht]
    linear_combination -hpq
  have h' : ∀ c, ∃ bad : Finset F, bad.card ≤ a.length ∧ (c ∉ bad1 →
      ∀ x, ((a.map (fold c)).map fun v => v - x).prod - ((b.map (fold c)).map fun v => v - x).prod = 0 → x ∈ bad) := by
    intro c
    by_cases hc : c ∈ bad1
    · exact ⟨∅, by simp, fun h => absurd hc h⟩
    · obtain ⟨bad, h1, h2⟩ := shuffle_few_points (a.map (fold c)) (b.map (fold c)) (by simpa using hl) (hperm c hc)
      exact ⟨bad, by simpa using h1, fun _ => h2⟩
  choose bad2 hb2 hm2 using h'
  let S1 : Finset (Chal F) := bad1 ×ˢ (Finset.univ : Finset (F × F))
  let S2 : Finset (Chal F) := Finset.univ.biUnion fun c : F =>
    (bad2 c ×ˢ (Finset.univ : Finset F)).image fun p => (c, p.1, p.2)
  refine ⟨S1 ∪ S2, ?_, ?_⟩
  · have hS1 : S1.card ≤ a.length ^ 2 * Fintype.card F ^ 2 := by
      simp only [S1, Finset.card_product, Finset.card_univ, Fintype.card_prod]
      rw [sq (Fintype.card F)]
      exact Nat.mul_le_mul_right _ hb1
    have hS2 : S2.card ≤ a.length * Fintype.card F ^ 2 := by
      calc S2.card ≤ ∑ c : F, ((bad2 c ×ˢ (Finset.univ : Finset F)).image fun p => (c, p.1, p.2)).card :=
            Finset.card_biUnion_le
        _ ≤ ∑ _c : F, a.length * Fintype.card F := by
            refine Finset.sum_le_sum fun c _ => Finset.card_image_le.trans ?_
            rw [Finset.card_product, Finset.card_univ]
            exact Nat.mul_le_mul_right _ (hb2 c)
        _ = a.length * Fintype.card F ^ 2 := by
            rw [Finset.sum_const, Finset.card_univ, smul_eq_mul]; ring
    calc (S1 ∪ S2).card ≤ S1.card + S2.card := Finset.card_union_le _ _
      _ ≤ _ := Nat.add_le_add hS1 hS2
      _ = _ := by ring
  · intro c hc
    rw [shuffleClosure_eq a b hl h2] at hc
    obtain ⟨l, hl', hz⟩ := hc
    cases hl'
    have hz := hz _ (List.mem_singleton_self _)
    by_cases h1 : c.1 ∈ bad1
    · exact Finset.mem_union_left _ (by simp [S1, h1])
    · refine Finset.mem_union_right _ ?_
      simp only [S2, Finset.mem_biUnion, Finset.mem_univ, true_and, Finset.mem_image, Finset.mem_product, and_true]
      exact ⟨c.1, (c.2.1, c.2.2), hm2 c.1 h1 c.2.1 hz, rfl⟩

/-! ### the merge gate -/

/-- an affine function of the three challenges that is not identically zero has few zeros -/
theorem few_affine [Fintype F] (d0 d1 d2 d3 : F) (h : ¬ (d0 = 0 ∧ d1 = 0 ∧ d2 = 0 ∧ d3 = 0)) :
    ∃ bad : Finset (Chal F), bad.card ≤ Fintype.card F ^ 2 ∧
      ∀ c : Chal F, d0 + d1 * c.1 + d2 * c.2.1 + d3 * c.2.2 = 0 → c ∈ bad := by
  classical
  by_cases h1 : d1 = 0
  · by_cases h2 : d2 = 0
    · by_cases h3 : d3 = 0
      · refine ⟨∅, by simp, fun c hc => ?_⟩
        exfalso
        refine h ⟨?_, h1, h2, h3⟩
        rw [h1, h2, h3] at hc
        linear_combination hc
      · refine ⟨(Finset.univ : Finset (F × F)).image fun p => (p.1, p.2, (-d0 - d1 * p.1 - d2 * p.2) / d3), ?_, ?_⟩
        · refine Finset.card_image_le.trans ?_
          rw [Finset.card_univ, Fintype.card_prod, sq]
        · intro c hc
          refine Finset.mem_image.2 ⟨(c.1, c.2.1), Finset.mem_univ _, ?_⟩
          refine Prod.ext rfl (Prod.ext rfl ?_)
          simp only
          rw [div_eq_iff h3]
          linear_combination -hc
    · refine ⟨(Finset.univ : Finset (F × F)).image fun p => (p.1, (-d0 - d1 * p.1 - d3 * p.2) / d2, p.2), ?_, ?_⟩
      · refine Finset.card_image_le.trans ?_
        rw [Finset.card_univ, Fintype.card_prod, sq]
      · intro c hc
        refine Finset.mem_image.2 ⟨(c.1, c.2.2), Finset.mem_univ _, ?_⟩
        refine Prod.ext rfl (Prod.ext ?_ rfl)
        simp only
        rw [div_eq_iff h2]
        linear_combination -hc
  · refine ⟨(Finset.univ : Finset (F × F)).image fun p => ((-d0 - d2 * p.1 - d3 * p.2) / d1, p.1, p.2), ?_, ?_⟩
    · refine Finset.card_image_le.trans ?_
      rw [Finset.card_univ, Fintype.card_prod, sq]
    · intro c hc
      refine Finset.mem_image.2 ⟨(c.2.1, c.2.2), Finset.mem_univ _, ?_⟩
      refine Prod.ext ?_ rfl
      simp only
      rw [div_eq_iff h1]
      linear_combination -hc

/-- what the merge gate is for: either nothing changes, or equal types are added up -/
inductive GateOk : MixVar F → MixVar F → MixVar F → MixVar F → Prop
  | keep (a b : MixVar F) : GateOk a b a b
  | merge (x y t t' : F) : GateOk (x, t) (y, t) (0, t') (x + y, t)

theorem few_gate [Fintype F] (in1 in2 out1 out2 : MixVar F) (hn : ¬ GateOk in1 in2 out1 out2) :
    Few 2 (gateClosure in1 in2 out1 out2) := by
  classical
  obtain ⟨x1, t1⟩ := in1
  obtain ⟨x2, t2⟩ := in2
  obtain ⟨y1, s1⟩ := out1
  obtain ⟨y2, s2⟩ := out2
  have hl : ¬ (x1 - y1 = 0 ∧ t1 - s1 = 0 ∧ x2 - y2 = 0 ∧ t2 - s2 = 0) := by
    rintro ⟨h1, h2, h3, h4⟩
    have h1 := sub_eq_zero.1 h1
    have h2 := sub_eq_zero.1 h2
    have h3 := sub_eq_zero.1 h3
    have h4 := sub_eq_zero.1 h4
    subst h1 h2 h3 h4
    exact hn (GateOk.keep _ _)
  have hr : ¬ (y1 = 0 ∧ t1 - t2 = 0 ∧ y2 - x1 - x2 = 0 ∧ s2 - t1 = 0) := by
    rintro ⟨h1, h2, h3, h4⟩
    have h2 := sub_eq_zero.1 h2
    have h4 := sub_eq_zero.1 h4
    have h3 : y2 = x1 + x2 := by linear_combination h3
    subst h1 h2 h3 h4
    exact hn (GateOk.merge _ _ _ _)
  obtain ⟨b1, c1, m1⟩ := few_affine _ _ _ _ hl
  obtain ⟨b2, c2, m2⟩ := few_affine _ _ _ _ hr
  refine ⟨b1 ∪ b2, ?_, ?_⟩
  · calc (b1 ∪ b2).card ≤ b1.card + b2.card := Finset.card_union_le _ _
      _ ≤ _ := by omega
  · rintro c ⟨l, h, hz⟩
    simp only [gateClosure, Res.ok.injEq] at h
    subst h
    have hz := hz _ (List.mem_singleton_self _)
    rcases mul_eq_zero.1 hz with h | h
    · exact Finset.mem_union_left _ (m1 c h)
    · exact Finset.mem_union_right _ (m2 c h)

/-! ### the gadgets -/

theorem soundR_allocatePair {G : Rand F → Prop} (v : Option (MixVar F)) :
    SoundR (F := F) G (allocatePair v) (fun _ => True) :=
  SoundR.bind (soundR_allocate _) fun _ => SoundR.bind (soundR_allocate _) fun _ => SoundR.ret fun _ _ => trivial

theorem soundR_allocateMixVector {G : Rand F → Prop} (len : Nat) :
    SoundR (F := F) G (allocateMixVector none len) (fun l => l.length = len) := by
  unfold allocateMixVector
  refine (SoundR.forM' (fun (pre : List Unit) (l : List (MixVar F)) => l.length = pre.length) _ _ ?_).cons ?_
  · intro pre b a
    refine SoundR.bind (soundR_allocatePair _) fun v => SoundR.ret ?_
    intro _ h
    simp [h]
  · intro l h
    simpa using h rfl

theorem soundR_pad {G : Rand F → Prop} (n : Nat) (list : List (MixVar F)) :
    SoundR (F := F) G (pad n list) (fun l => ∃ e, l = list ++ e ∧ e.length = n - list.length) := by
  unfold pad
  refine (SoundR.forM' (fun (pre : List Unit) (l : List (MixVar F)) => ∃ e, l = list ++ e ∧ e.length = pre.length)
    _ _ ?_).cons ?_
  · intro pre b a
    refine SoundR.bind (soundR_allocatePair _) fun v => SoundR.ret ?_
    rintro _ ⟨e, rfl, he⟩
    exact ⟨e ++ [v], by simp, by simp [he]⟩
  · intro l h
    simpa using h ⟨[], by simp, rfl⟩

theorem soundR_mixShuffle [Fintype F] (K : Nat) (a b : List (MixVar F)) :
    SoundR (F := F) (fun f => ¬ Few K f) (mixShuffle a b) (fun _ => a.length ^ 2 + a.length ≤ K → a.Perm b) := by
  unfold mixShuffle
  split
  · exact SoundR.fail
  · rename_i hl
    have hl : a.length = b.length := by simpa using hl
    match a, b, hl with
    | [], [], _ => exact SoundR.ret fun _ => List.Perm.refl _
    | [x], [y], _ =>
      refine SoundR.bind (soundR_constrain _) fun _ => SoundR.bind (soundR_constrain _) fun _ => SoundR.ret ?_
      intro h1 h2 _
      have : y = x := Prod.ext (by linear_combination h2) (by linear_combination h1)
      rw [this]
    | x :: x' :: a, y :: y' :: b, hl =>
      refine SoundR.bind (soundR_specify _) fun _ => SoundR.ret ?_
      intro h hK
      by_contra hn
      exact h ((few_shuffle _ _ hl (by simp) hn).mono hK)

/-- the four lists go through merge gates one after the other -/
inductive Chain : List (MixVar F) → List (MixVar F) → List (MixVar F) → List (MixVar F) → Prop
  | nil : Chain [] [] [] []
  | cons {i1 i2 o1 o2 in1 in2 out1 out2} : GateOk i1 i2 o1 o2 → Chain in1 in2 out1 out2 →
      Chain (i1 :: in1) (i2 :: in2) (o1 :: out1) (o2 :: out2)

theorem soundR_mergeGates [Fintype F] (K : Nat) (hK : 2 ≤ K) (in1 in2 out1 out2 : List (MixVar F)) (n : Nat)
    (h1 : in1.length = in2.length) (h2 : out1.length = in2.length) (h3 : out2.length = in2.length) :
    SoundR (F := F) (fun f => ¬ Few K f) (mergeGates in1 in2 out1 out2 n) (fun _ => Chain in1 in2 out1 out2) := by
  induction in2 generalizing in1 out1 out2 n with
  | nil =>
    rw [List.length_eq_zero_iff.1 h1, List.length_eq_zero_iff.1 h2, List.length_eq_zero_iff.1 h3]
    exact SoundR.ret Chain.nil
  | cons i2 in2 ih =>
    match in1, out1, out2, h1, h2, h3 with
    | i1 :: in1, o1 :: out1, o2 :: out2, h1, h2, h3 =>
      unfold mergeGates gateMixOrNot
      refine SoundR.bind (P := fun _ => GateOk i1 i2 o1 o2) (SoundR.bind (soundR_specify _) fun _ => SoundR.ret ?_)
        fun g => (ih _ _ _ _ (by simpa using h1) (by simpa using h2) (by simpa using h3)).cons
          fun _ hc hg => Chain.cons hg hc
      intro h
      by_contra hn
      exact h ((few_gate _ _ _ _ hn).mono hK)

/-- the lists `sorted` and `merged` are connected by merge gates through some intermediate list -/
def Merges (sorted merged : List (MixVar F)) : Prop :=
  ∃ first rest inter last, sorted = first :: rest ∧ merged.getLast? = some last ∧
    Chain (first :: inter) rest merged.dropLast (inter ++ [last])

theorem soundR_mixMerge [Fintype F] (K : Nat) (hK : 2 ≤ K) (sorted inter merged : List (MixVar F)) :
    SoundR (F := F) (fun f => ¬ Few K f) (mixMerge sorted inter merged)
      (fun _ => 2 ≤ sorted.length → Merges sorted merged) := by
  match sorted, merged with
  | [], _ => exact SoundR.crash
  | [a], [] => exact SoundR.crash
  | [a], b :: _ =>
    refine SoundR.bind (soundR_constrain _) fun _ => SoundR.bind (soundR_constrain _) fun _ => SoundR.ret ?_
    intro _ _ h
    simp at h
  | a :: b :: rest, [] => exact SoundR.crash
  | a :: b :: rest, m :: ms =>
    unfold mixMerge
    simp only
    split
    · exact SoundR.crash
    · rename_i hlm
      split
      · exact SoundR.crash
      · rename_i hli
        simp only [not_not, List.length_cons] at hlm hli
        cases hlast : (m :: ms).getLast? with
        | none => exact SoundR.crash
        | some last =>
          refine (soundR_mergeGates K hK _ _ _ _ _ ?_ ?_ ?_).cons fun _ hc _ => ⟨a, b :: rest, inter, last, rfl, hlast, hc⟩
          · simp only [List.length_cons]; omega
          · rw [List.length_dropLast]; simp only [List.length_cons]; omega
          · simp only [List.length_append, List.length_cons, List.length_nil]; omega

/-- `sort_and_merge` on two or more variables, in the verifier -/
theorem soundR_sortAndMerge [Fintype F] [DecidableEq F] (K : Nat) (vars : List (MixVar F))
    (h2 : 2 ≤ vars.length) (hK : vars.length ^ 2 + vars.length ≤ K) :
    SoundR (F := F) (fun f => ¬ Few K f) (sortAndMerge vars none) (fun r =>
      r.2.length = vars.length ∧ ∃ sorted, vars.Perm sorted ∧ Merges sorted r.2) := by
  match vars, h2 with
  | a :: b :: vars, h2 =>
    unfold sortAndMerge sortAndMergeVars
    simp only
    refine SoundR.bind (soundR_allocateMixVector _) fun sorted => SoundR.bind (soundR_allocateMixVector _) fun inter =>
      SoundR.bind (soundR_allocateMixVector _) fun merged => SoundR.bind (soundR_mixShuffle K _ _) fun g1 => ?_
    refine SoundR.bind (soundR_mixMerge K (by nlinarith [hK, h2]) sorted inter merged) fun g2 => SoundR.ret ?_
    intro h5 h4 h3 _ h1
    exact ⟨h3, sorted, h4 hK, h5 (by omega)⟩

/-! ### amounts as integers -/

/-- a list of integer amounts with their types, as circuit values -/
def vals (N : List (Nat × F)) : List (MixVar F) := N.map fun p => ((p.1 : F), p.2)

/-- the integer total of the amounts of type `t` -/
def total [DecidableEq F] (t : F) (N : List (Nat × F)) : Nat :=
  ((N.filter fun p => p.2 = t).map Prod.fst).sum

theorem total_nil [DecidableEq F] (t : F) : total t ([] : List (Nat × F)) = 0 := rfl

theorem total_cons [DecidableEq F] (t : F) (p : Nat × F) (N : List (Nat × F)) :
    total t (p :: N) = (if p.2 = t then p.1 else 0) + total t N := by
  unfold total
  by_cases h : p.2 = t <;> simp [h]

theorem total_append [DecidableEq F] (t : F) (N N' : List (Nat × F)) : total t (N ++ N') = total t N + total t N' := by
  simp [total]

theorem total_perm [DecidableEq F] (t : F) {N N' : List (Nat × F)} (h : N.Perm N') : total t N = total t N' :=
  ((h.filter _).map _).sum_eq

theorem le_total [DecidableEq F] {p : Nat × F} {N : List (Nat × F)} (h : p ∈ N) : p.1 ≤ total p.2 N := by
  induction N with
  | nil => simp at h
  | cons q N ih =>
    rw [total_cons]
    rcases List.mem_cons.1 h with rfl | h
    · simp
    · exact (ih h).trans (Nat.le_add_left _ _)

theorem total_le [DecidableEq F] (t : F) {N : List (Nat × F)} {b : Nat} (h : ∀ p ∈ N, p.1 ≤ b) :
    total t N ≤ N.length * b := by
  induction N with
  | nil => simp [total_nil]
  | cons q N ih =>
    rw [total_cons, List.length_cons, Nat.add_mul, Nat.one_mul]
    have h1 := ih fun p hp => h p (List.mem_cons_of_mem _ hp)
    have h2 := h q List.mem_cons_self
    split <;> omega

theorem perm_vals {N : List (Nat × F)} {l : List (MixVar F)} (h : (vals N).Perm l) :
    ∃ N', N.Perm N' ∧ l = vals N' := by
  generalize hx : vals N = x at h
  induction h generalizing N with
  | nil =>
    cases N with
    | nil => exact ⟨[], List.Perm.refl _, rfl⟩
    | cons p N => simp [vals] at hx
  | cons y _ ih =>
    cases N with
    | nil => simp [vals] at hx
    | cons p N =>
      simp only [vals, List.map_cons, List.cons.injEq] at hx
      obtain ⟨N', h1, h2⟩ := ih hx.2
      exact ⟨p :: N', h1.cons p, by simp [vals, ← hx.1, h2]⟩
  | swap y z l =>
    match N with
    | [] => simp [vals] at hx
    | [p] => simp [vals] at hx
    | p :: q :: N =>
      simp only [vals, List.map_cons, List.cons.injEq] at hx
      exact ⟨q :: p :: N, List.Perm.swap _ _ _, by simp [vals, ← hx.1, ← hx.2.1, ← hx.2.2]⟩
  | trans _ _ ih1 ih2 =>
    obtain ⟨N1, h1, h2⟩ := ih1 hx
    obtain ⟨N2, h3, h4⟩ := ih2 h2.symm
    exact ⟨N2, h1.trans h3, h4⟩

/-- a chain of merge gates keeps the integer total of every type -/
theorem chain_total [DecidableEq F] (t0 : Nat × F) (rest : List (Nat × F)) (inter out1 : List (MixVar F))
    (last : MixVar F) (h : Chain ((((t0.1 : F), t0.2)) :: inter) (vals rest) out1 (inter ++ [last])) :
    ∃ N', out1 ++ [last] = vals N' ∧ ∀ t, total t N' = total t (t0 :: rest) := by
  induction rest generalizing t0 inter out1 with
  | nil => simp only [vals, List.map_nil] at h; cases h
  | cons r rest ih =>
    simp only [vals, List.map_cons] at h
    cases inter with
    | nil =>
      rw [List.nil_append] at h
      obtain _ | ⟨hg, hc⟩ := h
      rename_i o1 out1
      have hrest : rest = [] ∧ out1 = [] := by
        generalize hv : List.map (fun p : Nat × F => ((p.1 : F), p.2)) rest = v at hc
        cases hc
        exact ⟨by simpa using hv, rfl⟩
      obtain ⟨rfl, rfl⟩ := hrest
      generalize ha : (((t0.1 : F), t0.2) : MixVar F) = a at hg
      generalize hb : (((r.1 : F), r.2) : MixVar F) = b at hg
      cases hg with
      | keep =>
        exact ⟨[t0, r], by simp [vals, ← ha, ← hb], fun t => rfl⟩
      | merge x y t t' =>
        simp only [Prod.mk.injEq] at ha hb
        refine ⟨[(0, t'), (t0.1 + r.1, t)], by simp [vals, ← ha.1, ← hb.1], fun s => ?_⟩
        simp only [total_cons, total_nil, ha.2, hb.2]
        by_cases h : t = s <;> simp [h]
    | cons i inter =>
      rw [List.cons_append] at h
      obtain _ | ⟨hg, hc⟩ := h
      rename_i o1 out1
      generalize ha : (((t0.1 : F), t0.2) : MixVar F) = a at hg
      generalize hb : (((r.1 : F), r.2) : MixVar F) = b at hg
      cases hg with
      | keep =>
        rw [← hb] at hc
        obtain ⟨N', h1, h2⟩ := ih r inter out1 hc
        refine ⟨t0 :: N', by simp only [List.cons_append, h1, vals, List.map_cons, ← ha], fun t => ?_⟩
        rw [total_cons, h2, total_cons t t0]
      | merge x y t t' =>
        simp only [Prod.mk.injEq] at ha hb
        have e : ((x + y, t) : MixVar F) = (((t0.1 + r.1 : Nat) : F), t) := by rw [← ha.1, ← hb.1]; push_cast; rfl
        rw [e] at hc
        obtain ⟨N', h1, h2⟩ := ih (t0.1 + r.1, t) inter out1 hc
        refine ⟨(0, t') :: N', by simp only [List.cons_append, h1, vals, List.map_cons, Nat.cast_zero], fun s => ?_⟩
        rw [total_cons, h2]
        simp only [total_cons, ha.2, hb.2]
        by_cases h : t = s <;> simp [h]
        omega

theorem merges_total [DecidableEq F] {N : List (Nat × F)} {merged : List (MixVar F)} (h : Merges (vals N) merged) :
    ∃ N', merged = vals N' ∧ ∀ t, total t N' = total t N := by
  obtain ⟨first, rest, inter, last, h1, h2, h3⟩ := h
  cases N with
  | nil => simp [vals] at h1
  | cons p N =>
    simp only [vals, List.map_cons, List.cons.injEq] at h1
    rw [← h1.1, ← h1.2] at h3
    obtain ⟨N', h4, h5⟩ := chain_total p N inter _ last h3
    refine ⟨N', ?_, h5⟩
    rw [← h4]
    exact (List.dropLast_append_getLast? _ h2).symm

theorem vals_inj [ScalarRepr F] {N N' : List (Nat × F)} (h : vals N = vals N')
    (h1 : ∀ p ∈ N, p.1 < ScalarRepr.order F) (h2 : ∀ p ∈ N', p.1 < ScalarRepr.order F) : N = N' := by
  induction N generalizing N' with
  | nil =>
    cases N' with
    | nil => rfl
    | cons p N' => simp [vals] at h
  | cons q N ih =>
    cases N' with
    | nil => simp [vals] at h
    | cons p N' =>
      simp only [vals, List.map_cons, List.cons.injEq, Prod.mk.injEq] at h
      have e : q.1 = p.1 := by
        have := congrArg ScalarRepr.val h.1.1
        rwa [ScalarRepr.val_cast _ (h1 q List.mem_cons_self), ScalarRepr.val_cast _ (h2 p List.mem_cons_self)] at this
      rw [ih h.2 (fun p hp => h1 p (List.mem_cons_of_mem _ hp)) (fun p hp => h2 p (List.mem_cons_of_mem _ hp)),
        Prod.ext e h.1.2]

theorem soundR_mixRanges {G : Rand F → Prop} [ScalarRepr F] (outs : List (MixVar F)) (n : Nat) :
    SoundR (F := F) G (mixRanges outs none n)
      (fun _ => ∃ N, outs = vals N ∧ ∀ p ∈ N, p.1 < 2 ^ 64) := by
  induction outs generalizing n with
  | nil => exact SoundR.ret ⟨[], rfl, by simp⟩
  | cons out outs ih =>
    refine SoundR.bind (soundR_range _ _) fun g => (ih _).cons ?_
    rintro _ ⟨N, h1, h2⟩ ⟨k, hk, hv⟩
    refine ⟨(k, out.2) :: N, ?_, ?_⟩
    · simp [vals, h1, ← hv]
    · intro p hp
      rcases List.mem_cons.1 hp with rfl | hp
      · exact hk
      · exact h2 p hp

/-- the conclusion for a circuit with at least as many inputs as outputs, and at least two of each -/
theorem soundR_mix [Fintype F] [DecidableEq F] [ScalarRepr F] (N : List (Nat × F)) (outs : List (MixVar F)) (K : Nat)
    (hN : ∀ p ∈ N, p.1 < 2 ^ 64) (hm : 2 ≤ outs.length) (hnm : outs.length ≤ N.length)
    (hK : N.length ^ 2 + N.length ≤ K) (ho : N.length * 2 ^ 64 ≤ ScalarRepr.order F) :
    SoundR (F := F) (fun f => ¬ Few K f) (mix (vals N) none outs none) (fun _ =>
      ∃ N', outs = vals N' ∧ (∀ p ∈ N', p.1 < 2 ^ 64) ∧
        ∀ t, total t N' ≤ total t N ∧ (outs.length = N.length → total t N' = total t N)) := by
  have hl : (vals N).length = N.length := by simp [vals]
  have hK' : outs.length ^ 2 + outs.length ≤ K := le_trans (by nlinarith) hK
  unfold mix
  rw [if_neg (by rw [not_not]; left; omega), if_neg (by omega)]
  refine SoundR.bind (soundR_sortAndMerge K _ (by omega) (by rwa [hl])) fun n =>
    SoundR.bind (soundR_sortAndMerge K _ hm hK') fun m => ?_
  refine SoundR.bind (P := fun (r : List (MixVar F) × List (MixVar F)) => r.1 = n.2 ∧
    ∃ e, r.2 = m.2 ++ e ∧ e.length = (vals N).length - m.2.length) ?_ fun r => ?_
  · unfold padShorter
    rw [if_neg (by omega)]
    exact SoundR.bind (soundR_pad _ _) fun l => SoundR.ret fun h => ⟨rfl, h⟩
  refine SoundR.bind (soundR_mixShuffle K _ _) fun g => (soundR_mixRanges _ _).cons ?_
  rintro _ ⟨No, rfl, hNo⟩ hsh ⟨hr1, e, hr2, he⟩ ⟨hml, so, hpo, hmo⟩ ⟨hnl, si, hpi, hmi'⟩
  have hsh := hsh (by rw [hr1, hnl, hl]; exact hK)
  rw [hr1, hr2] at hsh
  obtain ⟨Ni, hNi, rfl⟩ := perm_vals hpi
  obtain ⟨Nm, hNm, htm⟩ := merges_total hmi'
  obtain ⟨Noo, hNoo, rfl⟩ := perm_vals hpo
  obtain ⟨Nom, hNom, htom⟩ := merges_total hmo
  have hNl : (vals No).length = No.length := by simp [vals]
  rw [hNm, hNom] at hsh
  obtain ⟨Np, hNp, hsp⟩ := perm_vals hsh
  have hsplit : ∃ N1 N2, Np = N1 ++ N2 ∧ vals Nom = vals N1 ∧ e = vals N2 := by
    refine ⟨Np.take Nom.length, Np.drop Nom.length, (List.take_append_drop _ _).symm, ?_, ?_⟩
    · have := congrArg (List.take Nom.length) hsp
      rw [List.take_left' (by simp [vals])] at this
      rw [this]; simp [vals, List.map_take]
    · have := congrArg (List.drop Nom.length) hsp
      rw [List.drop_left' (by simp [vals])] at this
      rw [this]; simp [vals, List.map_drop]
  obtain ⟨N1, N2, rfl, h1, h2⟩ := hsplit
  have tin : ∀ t, total t N1 + total t N2 = total t N := by
    intro t
    rw [← total_append, ← total_perm t hNp, htm, ← total_perm t hNi]
  have tout : ∀ t, total t Nom = total t No := by
    intro t
    rw [htom, ← total_perm t hNoo]
  have bin : ∀ t, total t N < ScalarRepr.order F := by
    intro t
    have hpos : 0 < N.length := by omega
    have : total t N ≤ N.length * (2 ^ 64 - 1) := total_le t fun p hp => Nat.le_sub_one_of_lt (hN p hp)
    have h2 : N.length * (2 ^ 64 - 1) < N.length * 2 ^ 64 := Nat.mul_lt_mul_of_pos_left (by norm_num) hpos
    omega
  have bout : ∀ t, total t No < ScalarRepr.order F := by
    intro t
    have hpos : 0 < N.length := by omega
    have : total t No ≤ No.length * (2 ^ 64 - 1) := total_le t fun p hp => Nat.le_sub_one_of_lt (hNo p hp)
    have h2 : N.length * (2 ^ 64 - 1) < N.length * 2 ^ 64 := Nat.mul_lt_mul_of_pos_left (by norm_num) hpos
    have h3 : No.length * (2 ^ 64 - 1) ≤ N.length * (2 ^ 64 - 1) := Nat.mul_le_mul_right _ (by omega)
    omega
  have heq : Nom = N1 := by
    refine vals_inj h1 (fun p hp => ?_) (fun p hp => ?_)
    · have := le_total hp
      rw [tout] at this
      exact lt_of_le_of_lt this (bout _)
    · have := le_total hp
      have h3 := tin p.2
      have h4 := bin p.2
      omega
  subst heq
  refine ⟨No, rfl, hNo, fun t => ?_⟩
  have h3 := tin t
  rw [tout] at h3
  refine ⟨by omega, fun hlen => ?_⟩
  have : e.length = 0 := by rw [he, hml, hl]; omega
  have hN2 : N2 = [] := by
    rw [List.length_eq_zero_iff.1 this] at h2
    cases N2 with
    | nil => rfl
    | cons => simp [vals] at h2
  subst hN2
  rw [total_nil] at h3
  omega

end
end Verif.R1cs
