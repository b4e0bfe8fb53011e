import Mathlib.Tactic.Ring
import Mathlib.Tactic.Linarith
import Mathlib.Algebra.BigOperators.Group.List.Basic
import Verif.Xfr.Spec

namespace Verif.Xfr

open Spec

variable {S : Types}

section
variable [DecidableEq S.AT]

/-- sum stored for a type -/
def msum (m : AmountMap S) (t : S.AT) : Int := (m.map (fun e => if e.1 = t then e.2.sum else 0)).sum

theorem msum_push (m : AmountMap S) (t : S.AT) (x : Int) (t' : S.AT) :
    msum (m.push t x) t' = msum m t' + if t = t' then x else 0 := by
  induction m with
  | nil => simp [AmountMap.push, msum]
  | cons e m ih =>
    obtain ⟨k, v⟩ := e
    unfold AmountMap.push
    split
    · rename_i h; subst h
      simp only [msum, List.map_cons, List.sum_cons]
      split <;> simp <;> ring
    · simp only [msum, List.map_cons, List.sum_cons] at ih ⊢
      rw [ih]; ring

theorem keys_push (m : AmountMap S) (t : S.AT) (x : Int) (k : S.AT) :
    k ∈ (m.push t x).map (·.1) ↔ k ∈ m.map (·.1) ∨ k = t := by
  induction m with
  | nil => simp [AmountMap.push]
  | cons e m ih =>
    obtain ⟨k', v⟩ := e
    unfold AmountMap.push
    split
    · rename_i h; subst h; simp only [List.map_cons, List.mem_cons]; tauto
    · simp only [List.map_cons, List.mem_cons, ih]; tauto

theorem nodup_push (m : AmountMap S) (t : S.AT) (x : Int) (h : (m.map (·.1)).Nodup) :
    ((m.push t x).map (·.1)).Nodup := by
  induction m with
  | nil => simp [AmountMap.push]
  | cons e m ih =>
    obtain ⟨k', v⟩ := e
    unfold AmountMap.push
    split
    · simpa using h
    · rename_i hne
      simp only [List.map_cons, List.nodup_cons] at h ⊢
      refine ⟨?_, ih h.2⟩
      rw [keys_push]
      rintro (h' | h')
      · exact h.1 h'
      · exact hne h'

theorem msum_of_not_mem (m : AmountMap S) (t : S.AT) (h : t ∉ m.map (·.1)) : msum m t = 0 := by
  induction m with
  | nil => rfl
  | cons e m ih =>
    simp only [List.map_cons, List.mem_cons, not_or] at h
    simp only [msum, List.map_cons, List.sum_cons]
    rw [if_neg (fun h' => h.1 h'.symm)]
    have := ih h.2
    simp only [msum] at this
    rw [this]; rfl

theorem allZero_iff (m : AmountMap S) (h : (m.map (·.1)).Nodup) :
    m.allZero = true ↔ ∀ t, msum m t = 0 := by
  induction m with
  | nil => simp [AmountMap.allZero, msum]
  | cons e m ih =>
    simp only [List.map_cons, List.nodup_cons] at h
    have ih := ih h.2
    have hz : AmountMap.allZero (e :: m) = true ↔ e.2.sum = 0 ∧ AmountMap.allZero m = true := by
      simp [AmountMap.allZero]
    have hs : ∀ t, msum (e :: m) t = (if e.1 = t then e.2.sum else 0) + msum m t := by
      intro t; simp [msum]
    rw [hz, ih]
    constructor
    · rintro ⟨h1, h2⟩ t
      rw [hs, h2]; split <;> simp [h1]
    · intro h'
      have h1 : e.2.sum = 0 := by
        have := h' e.1
        rw [hs, if_pos rfl, msum_of_not_mem m e.1 h.1] at this
        simpa using this
      refine ⟨h1, fun t => ?_⟩
      have := h' t
      rw [hs] at this
      simpa [h1] using this

/-- folding `push` over a list -/
theorem fold_push {α : Type} (f : α → S.AT) (g : α → Int) (l : List α) (m : AmountMap S)
    (hm : (m.map (·.1)).Nodup) :
    ((l.foldl (fun m r => AmountMap.push m (f r) (g r)) m).map (·.1)).Nodup ∧
    ∀ t, msum (l.foldl (fun m r => AmountMap.push m (f r) (g r)) m) t =
      msum m t + (l.map (fun r => if f r = t then g r else 0)).sum := by
  induction l generalizing m with
  | nil => simp [hm]
  | cons a l ih =>
    obtain ⟨h1, h2⟩ := ih (m.push (f a) (g a)) (nodup_push _ _ _ hm)
    refine ⟨h1, fun t => ?_⟩
    simp only [List.foldl_cons, List.map_cons, List.sum_cons]
    rw [h2, msum_push]; ring

theorem sum_map_neg {α : Type} (l : List α) (f : α → Int) :
    (l.map (fun a => -f a)).sum = -(l.map f).sum := by
  induction l with
  | nil => rfl
  | cons a l ih => simp only [List.map_cons, List.sum_cons, ih]; ring

theorem cast_sum_map {α : Type} (l : List α) (f : α → Nat) :
    (((l.map f).sum : Nat) : Int) = (l.map (fun a => (f a : Int))).sum := by
  induction l with
  | nil => rfl
  | cons a l ih => simp only [List.map_cons, List.sum_cons, Nat.cast_add, ih]

theorem checkAssetAmount_iff (inputs outputs : List (AssetRecord S)) :
    checkAssetAmount inputs outputs = true ↔ ∀ t, openTotal t inputs = openTotal t outputs := by
  unfold checkAssetAmount
  obtain ⟨n1, s1⟩ := fold_push (S := S) (fun r : AssetRecord S => r.oar.assetType)
    (fun r => (r.oar.amount.toNat : Int)) inputs [] (by simp)
  obtain ⟨n2, s2⟩ := fold_push (S := S) (fun r : AssetRecord S => r.oar.assetType)
    (fun r => -(r.oar.amount.toNat : Int)) outputs _ n1
  simp only
  rw [allZero_iff _ n2]
  refine forall_congr' fun t => ?_
  rw [s2, s1]
  have e1 : (outputs.map (fun r => if r.oar.assetType = t then -(r.oar.amount.toNat : Int) else 0)).sum
      = -((openTotal t outputs : Nat) : Int) := by
    unfold openTotal
    rw [cast_sum_map, ← sum_map_neg]
    congr 1
    refine List.map_congr_left fun r _ => ?_
    split <;> simp
  have e2 : (inputs.map (fun r => if r.oar.assetType = t then (r.oar.amount.toNat : Int) else 0)).sum
      = ((openTotal t inputs : Nat) : Int) := by
    unfold openTotal
    rw [cast_sum_map]
    congr 1
    refine List.map_congr_left fun r _ => ?_
    split <;> simp
  rw [e1, e2]
  simp only [msum, List.map_nil, List.sum_nil]
  omega

omit [DecidableEq S.AT] in
theorem getAmount_eq_some (a : XfrAmount S) (x : UInt64) : a.getAmount = some x ↔ a = .plain x := by
  cases a <;> simp [XfrAmount.getAmount]

omit [DecidableEq S.AT] in
theorem getAssetType_eq_some (a : XfrAssetType S) (x : S.AT) : a.getAssetType = some x ↔ a = .plain x := by
  cases a <;> simp [XfrAssetType.getAssetType]

theorem plainMixStep_eq_some (sign : Int) (m : AmountMap S) (r : BlindAssetRecord S) (m' : AmountMap S) :
    plainMixStep sign m r = some m' ↔ ∃ t a, IsPublic r t a ∧ m' = m.push t (sign * a.toNat) := by
  unfold plainMixStep IsPublic
  cases h1 : r.assetType <;> cases h2 : r.amount <;>
    simp [XfrAmount.getAmount, XfrAssetType.getAssetType, eq_comm]

/-- the folds of `verify_plain_asset_mix` -/
theorem foldlM_plainMix (sign : Int) (l : List (BlindAssetRecord S)) (m : AmountMap S)
    (hm : (m.map (·.1)).Nodup) :
    ((∀ r ∈ l, ∃ t a, IsPublic r t a) →
      ∃ m', l.foldlM (plainMixStep sign) m = some m') ∧
    ∀ m', l.foldlM (plainMixStep sign) m = some m' →
      (∀ r ∈ l, ∃ t a, IsPublic r t a) ∧ (m'.map (·.1)).Nodup ∧
        ∀ t, msum m' t = msum m t + sign * (publicTotal t l : Nat) := by
  induction l generalizing m with
  | nil =>
    refine ⟨fun _ => ⟨m, rfl⟩, fun m' h => ?_⟩
    simp only [List.foldlM_nil, pure, Option.some.injEq] at h
    subst h
    simp [hm, publicTotal]
  | cons r l ih =>
    constructor
    · intro h
      obtain ⟨t, a, hp⟩ := h r (by simp)
      have hs := (plainMixStep_eq_some sign m r (m.push t (sign * a.toNat))).mpr ⟨t, a, hp, rfl⟩
      obtain ⟨m', hm'⟩ := (ih _ (nodup_push m t (sign * a.toNat) hm)).1
        (fun r hr => h r (by simp [hr]))
      exact ⟨m', by simp [List.foldlM_cons, hs, hm']⟩
    · intro m' h
      rw [List.foldlM_cons] at h
      cases hs : plainMixStep sign m r with
      | none => simp [hs] at h
      | some m1 =>
        simp only [hs, Option.bind_eq_bind, Option.bind_some] at h
        obtain ⟨t, a, hp, rfl⟩ := (plainMixStep_eq_some _ _ _ _).mp hs
        obtain ⟨h1, h2, h3⟩ := (ih _ (nodup_push m t (sign * a.toNat) hm)).2 m' h
        refine ⟨?_, h2, fun t' => ?_⟩
        · intro r' hr'
          rcases List.mem_cons.mp hr' with rfl | hr'
          · exact ⟨t, a, hp⟩
          · exact h1 r' hr'
        · rw [h3, msum_push]
          have hu : units t' r = if t = t' then a.toNat else 0 := by
            unfold units; rw [hp.1, hp.2]
          simp only [publicTotal, List.map_cons, List.sum_cons, hu]
          push_cast
          split <;> push_cast <;> ring

theorem verifyPlainAssetMix_iff (ins outs : List (BlindAssetRecord S)) :
    verifyPlainAssetMix ins outs = some () ↔
      (∀ r ∈ ins ++ outs, ∃ t a, IsPublic r t a) ∧ ∀ t, publicTotal t ins = publicTotal t outs := by
  unfold verifyPlainAssetMix
  have hi := foldlM_plainMix (S := S) 1 ins [] (by simp)
  constructor
  · intro h
    cases h1 : ins.foldlM (plainMixStep 1) ([] : AmountMap S) with
    | none => simp [h1] at h
    | some m1 =>
      obtain ⟨p1, n1, s1⟩ := hi.2 m1 h1
      simp only [h1, Option.bind_eq_bind, Option.bind_some] at h
      cases h2 : outs.foldlM (plainMixStep (-1)) m1 with
      | none => simp [h2] at h
      | some m2 =>
        obtain ⟨p2, n2, s2⟩ := (foldlM_plainMix (-1) outs m1 n1).2 m2 h2
        simp only [h2, Option.bind_some, ite_eq_left_iff, reduceCtorEq, imp_false, not_not] at h
        rw [allZero_iff _ n2] at h
        refine ⟨?_, fun t => ?_⟩
        · intro r hr
          rcases List.mem_append.mp hr with hr | hr
          · exact p1 r hr
          · exact p2 r hr
        · have := h t
          rw [s2, s1] at this
          simp only [msum, List.map_nil, List.sum_nil] at this
          omega
  · rintro ⟨hp, ht⟩
    obtain ⟨m1, h1⟩ := hi.1 (fun r hr => hp r (by simp [hr]))
    obtain ⟨_, n1, s1⟩ := hi.2 m1 h1
    obtain ⟨m2, h2⟩ := (foldlM_plainMix (-1) outs m1 n1).1 (fun r hr => hp r (by simp [hr]))
    obtain ⟨_, n2, s2⟩ := (foldlM_plainMix (-1) outs m1 n1).2 m2 h2
    simp only [h1, h2, Option.bind_eq_bind, Option.bind_some, ite_eq_left_iff, reduceCtorEq, imp_false,
      not_not]
    rw [allZero_iff _ n2]
    intro t
    rw [s2, s1]
    simp only [msum, List.map_nil, List.sum_nil]
    have := ht t
    omega

omit [DecidableEq S.AT] in
theorem mapM_some_iff {α β : Type} (f : α → Option β) (l : List α) :
    (∃ ys, l.mapM f = some ys) ↔ ∀ a ∈ l, ∃ b, f a = some b := by
  induction l with
  | nil => simp
  | cons a l ih =>
    rw [List.mapM_cons]
    constructor
    · rintro ⟨ys, h⟩
      cases ha : f a with
      | none => simp [ha] at h
      | some b =>
        cases hl : l.mapM f with
        | none => simp [ha, hl] at h
        | some bs =>
          intro x hx
          rcases List.mem_cons.mp hx with rfl | hx
          · exact ⟨b, ha⟩
          · exact ih.mp ⟨bs, hl⟩ x hx
    · intro h
      obtain ⟨b, hb⟩ := h a (by simp)
      obtain ⟨bs, hbs⟩ := ih.mpr (fun x hx => h x (by simp [hx]))
      exact ⟨b :: bs, by simp [hb, hbs]⟩

omit [DecidableEq S.AT] in
theorem mapM_some_forall2 {α β : Type} (f : α → Option β) (l : List α) (ys : List β) :
    l.mapM f = some ys ↔ List.Forall₂ (fun a b => f a = some b) l ys := by
  induction l generalizing ys with
  | nil => simp [eq_comm]
  | cons a l ih =>
    rw [List.mapM_cons]
    cases ha : f a with
    | none =>
      simp only [Option.bind_eq_bind, Option.bind_none, reduceCtorEq, false_iff]
      intro h; cases h with | cons h _ => simp [ha] at h
    | some b =>
      cases hl : l.mapM f with
      | none =>
        simp only [Option.bind_eq_bind, Option.bind_some, Option.bind_none, reduceCtorEq, false_iff]
        intro h
        cases h with
        | cons h1 h2 => rw [← ih] at h2; simp [hl] at h2
      | some bs =>
        simp only [Option.bind_eq_bind, Option.bind_some, pure, Option.some.injEq]
        constructor
        · rintro rfl; exact .cons ha ((ih bs).mp hl)
        · intro h
          cases h with
          | cons h1 h2 =>
            rw [← ih, hl] at h2
            rw [ha] at h1
            simp_all

omit [DecidableEq S.AT] in
theorem safeSum_amounts (l : List (BlindAssetRecord S)) (ys : List UInt64)
    (h : l.mapM (fun x => x.amount.getAmount) = some ys) :
    safeSumU64 ys = (l.map publicAmount).sum := by
  rw [mapM_some_forall2] at h
  induction h with
  | nil => rfl
  | cons h1 _ ih =>
    rw [getAmount_eq_some] at h1
    simp only [safeSumU64, List.map_cons, List.sum_cons] at ih ⊢
    rw [ih]
    simp [publicAmount, h1]

omit [DecidableEq S.AT] in
theorem verifyPlainAmounts_iff (ins outs : List (BlindAssetRecord S)) :
    verifyPlainAmounts ins outs = some () ↔
      (∀ r ∈ ins ++ outs, ∃ a, r.amount = .plain a) ∧
        (ins.map publicAmount).sum = (outs.map publicAmount).sum := by
  unfold verifyPlainAmounts
  have hp : ∀ l : List (BlindAssetRecord S), (∀ r ∈ l, ∃ a, r.amount = .plain a) ↔
      ∃ ys, l.mapM (fun x => x.amount.getAmount) = some ys := by
    intro l; rw [mapM_some_iff]; simp only [getAmount_eq_some]
  have hsplit : (∀ r ∈ ins ++ outs, ∃ a, r.amount = .plain a) ↔
      (∀ r ∈ ins, ∃ a, r.amount = .plain a) ∧ (∀ r ∈ outs, ∃ a, r.amount = .plain a) := by
    simp only [List.mem_append]
    exact ⟨fun h => ⟨fun r hr => h r (.inl hr), fun r hr => h r (.inr hr)⟩,
      fun h r hr => hr.elim (h.1 r) (h.2 r)⟩
  rw [hsplit, hp, hp]
  cases h1 : ins.mapM (fun x => x.amount.getAmount) with
  | none => simp
  | some y1 =>
    cases h2 : outs.mapM (fun x => x.amount.getAmount) with
    | none => simp
    | some y2 =>
      simp only [Option.bind_eq_bind, Option.bind_some, Option.some.injEq, exists_eq', true_and, ne_eq,
        ite_not, ite_eq_left_iff, reduceCtorEq, imp_false, not_not]
      rw [safeSum_amounts _ _ h1, safeSum_amounts _ _ h2]

theorem allEqual_iff {α : Type} [DecidableEq α] (l : List α) :
    allEqual l = true ↔ ∀ x ∈ l, ∀ y ∈ l, x = y := by
  cases l with
  | nil => simp [allEqual]
  | cons a l =>
    simp only [allEqual, List.all_eq_true, beq_iff_eq, List.mem_cons]
    constructor
    · intro h x hx y hy
      have : ∀ z, z = a ∨ z ∈ l → z = a := fun z hz => hz.elim id (fun hz => (h z hz).symm)
      rw [this x hx, this y hy]
    · intro h y hy
      exact h a (.inl rfl) y (.inr hy)

theorem verifyPlainAsset_iff (ins outs : List (BlindAssetRecord S)) :
    verifyPlainAsset ins outs = some () ↔
      (∀ r ∈ ins ++ outs, ∃ t, r.assetType = .plain t) ∧
        ∀ r ∈ ins ++ outs, ∀ r' ∈ ins ++ outs, r.assetType = r'.assetType := by
  have key : verifyPlainAsset ins outs = some () ↔
      ∃ ys, (ins ++ outs).mapM (fun x => x.assetType.getAssetType) = some ys ∧ allEqual ys = true := by
    unfold verifyPlainAsset
    rw [List.mapM_append]
    cases h1 : ins.mapM (fun x => x.assetType.getAssetType) with
    | none => simp
    | some y1 =>
      cases h2 : outs.mapM (fun x => x.assetType.getAssetType) with
      | none => simp
      | some y2 => simp
  rw [key]
  generalize ins ++ outs = l
  constructor
  · rintro ⟨ys, h1, h2⟩
    have hall := (mapM_some_iff _ _).mp ⟨ys, h1⟩
    simp only [getAssetType_eq_some] at hall
    refine ⟨hall, ?_⟩
    rw [mapM_some_forall2] at h1
    rw [allEqual_iff] at h2
    have hmem : ∀ r ∈ l, ∃ y ∈ ys, r.assetType = .plain y := by
      clear h2 hall
      induction h1 with
      | nil => simp
      | @cons a b l1 l2 h h' ih =>
        intro r hr
        rcases List.mem_cons.mp hr with rfl | hr
        · exact ⟨b, by simp, (getAssetType_eq_some _ _).mp h⟩
        · obtain ⟨y, hy, e⟩ := ih r hr
          exact ⟨y, by simp [hy], e⟩
    intro r hr r' hr'
    obtain ⟨y, hy, e⟩ := hmem r hr
    obtain ⟨y', hy', e'⟩ := hmem r' hr'
    rw [e, e', h2 y hy y' hy']
  · rintro ⟨h1, h2⟩
    obtain ⟨ys, hys⟩ := (mapM_some_iff (fun x : BlindAssetRecord S => x.assetType.getAssetType) l).mpr
      (by simpa only [getAssetType_eq_some] using h1)
    refine ⟨ys, hys, ?_⟩
    rw [allEqual_iff]
    rw [mapM_some_forall2] at hys
    have hmem : ∀ y ∈ ys, ∃ r ∈ l, r.assetType = .plain y := by
      clear h1 h2
      induction hys with
      | nil => simp
      | @cons a b l1 l2 h h' ih =>
        intro y hy
        rcases List.mem_cons.mp hy with rfl | hy
        · exact ⟨a, by simp, (getAssetType_eq_some _ _).mp h⟩
        · obtain ⟨r, hr, e⟩ := ih y hy
          exact ⟨r, by simp [hr], e⟩
    intro x hx y hy
    obtain ⟨r, hr, e⟩ := hmem x hx
    obtain ⟨r', hr', e'⟩ := hmem y hy
    have := h2 r hr r' hr'
    rw [e, e'] at this
    exact XfrAssetType.plain.inj this

/-! classification -/

theorem fold_flags (t0 : S.AT) (l : List (AssetRecord S)) (f : XfrFlags) :
    l.foldl (xfrTypeStep t0) f =
      (f.1 || l.any (fun r => decide (t0 ≠ r.oar.assetType)),
       f.2.1 || l.any (fun r => r.oar.bar.amount.isConfidential && !r.oar.bar.assetType.isConfidential),
       f.2.2.1 || l.any (fun r => !r.oar.bar.amount.isConfidential && r.oar.bar.assetType.isConfidential),
       f.2.2.2 || l.any (fun r => r.oar.bar.amount.isConfidential && r.oar.bar.assetType.isConfidential)) := by
  induction l generalizing f with
  | nil => simp
  | cons r l ih =>
    obtain ⟨a, b, c, d⟩ := f
    rw [List.foldl_cons, ih]
    simp only [xfrTypeStep, List.any_cons]
    by_cases ht : t0 = r.oar.assetType <;> cases r.oar.bar.amount.isConfidential <;>
      cases r.oar.bar.assetType.isConfidential <;> simp [ht]

omit [DecidableEq S.AT] in
theorem isConfidential_amount (a : XfrAmount S) : a.isConfidential = true ↔ ∃ lo hi, a = .conf lo hi := by
  cases a <;> simp [XfrAmount.isConfidential]

omit [DecidableEq S.AT] in
theorem isConfidential_type (a : XfrAssetType S) : a.isConfidential = true ↔ ∃ c, a = .conf c := by
  cases a <;> simp [XfrAssetType.isConfidential]

end

end Verif.Xfr
