import Mathlib.Data.List.Dedup
import Verif.Bulletproofs.MixSound

/-! Completeness of the mixing circuit (C27): the prover's reordering, and the runs of prover and verifier. -/

namespace Verif.R1cs

open Verif.Plonk (ScalarRepr)

section
variable {F : Type}

/-! ### `sort` -/

/-- the type at a position -/
def typeAt (l : List (MixVar F)) (i : Nat) : Option F := (l[i]?).map Prod.snd

theorem swap_length {α : Type} (l : List α) (j k : Nat) : (swap l j k).length = l.length := by
  unfold swap
  split <;> simp

theorem swap_getElem {α : Type} (l : List α) (j k : Nat) (hj : j < l.length) (hk : k < l.length) (a : Nat) :
    (swap l j k)[a]? = if a = k then l[j]? else if a = j then l[k]? else l[a]? := by
  unfold swap
  rw [List.getElem?_eq_getElem hj, List.getElem?_eq_getElem hk]
  simp only
  by_cases h1 : a = k
  · subst h1
    rw [if_pos rfl, List.getElem?_set_self (by simpa using hk)]
  · rw [if_neg h1, List.getElem?_set_ne (Ne.symm h1)]
    by_cases h2 : a = j
    · subst h2
      rw [if_pos rfl, List.getElem?_set_self hj]
    · rw [if_neg h2, List.getElem?_set_ne (Ne.symm h2)]

theorem swap_perm {α : Type} [DecidableEq α] (l : List α) (j k : Nat) : (swap l j k).Perm l := by
  unfold swap
  cases hj : l[j]? with
  | none => exact List.Perm.refl _
  | some a =>
    cases hk : l[k]? with
    | none => exact List.Perm.refl _
    | some b =>
      simp only
      obtain ⟨hj', rfl⟩ := List.getElem?_eq_some_iff.1 hj
      obtain ⟨hk', rfl⟩ := List.getElem?_eq_some_iff.1 hk
      exact List.set_set_perm hj' hk'

variable [DecidableEq F]

theorem typeAt_swap (l : List (MixVar F)) (j k : Nat) (hj : j < l.length) (hk : k < l.length) (a : Nat) :
    typeAt (swap l j k) a = if a = k then typeAt l j else if a = j then typeAt l k else typeAt l a := by
  unfold typeAt
  rw [swap_getElem l j k hj hk]
  split
  · rfl
  · split <;> rfl

structure InnerSpec (t : F) (l : List (MixVar F)) (j k : Nat) (r : List (MixVar F) × Nat) : Prop where
  perm : r.1.Perm l
  outside : ∀ a, a < j ∨ k < a → typeAt r.1 a = typeAt l a
  le : j ≤ k → r.2 ≤ k
  ge : j ≤ r.2
  same : ∀ a, j ≤ a → a < r.2 → typeAt r.1 a = some t
  other : ∀ a, r.2 < a → a ≤ k → typeAt r.1 a ≠ some t
  from_inside : ∀ c, j ≤ c → c ≤ k → ∃ c', j ≤ c' ∧ c' ≤ k ∧ typeAt r.1 c = typeAt l c'

theorem sortInner_spec (t : F) (l : List (MixVar F)) (j k : Nat) (hk : k < l.length) :
    InnerSpec t l j k (sortInner t l j k) := by
  induction hn : k - j generalizing l j k with
  | zero =>
    unfold sortInner
    rw [dif_neg (by omega)]
    exact ⟨List.Perm.refl _, fun _ _ => rfl, fun h => h, Nat.le_refl _, fun a h1 h2 => by simp only at h2; omega,
      fun a h1 h2 => by simp only at h1; omega, fun c h1 h2 => ⟨c, h1, h2, rfl⟩⟩
  | succ n ih =>
    unfold sortInner
    rw [dif_pos (by omega)]
    have hj : j < l.length := by omega
    rw [List.getElem?_eq_getElem hj]
    simp only
    by_cases ht : t = (l[j]).2
    · rw [if_pos ht]
      obtain ⟨p1, p2, p3, p4, p5, p6, p7⟩ := ih l (j + 1) k hk (by omega)
      generalize sortInner t l (j + 1) k = r at *
      have hjt : typeAt r.1 j = some t := by
        rw [p2 j (Or.inl (by omega))]
        simp [typeAt, List.getElem?_eq_getElem hj, ht]
      refine ⟨p1, fun a ha => p2 a (by omega), fun _ => p3 (by omega), by omega, ?_, p6, ?_⟩
      · intro a h1 h2
        by_cases haj : a = j
        · rw [haj]; exact hjt
        · exact p5 a (by omega) h2
      · intro c h1 h2
        by_cases hcj : c = j
        · exact ⟨j, Nat.le_refl _, by omega, by rw [hcj]; exact p2 j (Or.inl (by omega))⟩
        · obtain ⟨c', q1, q2, q3⟩ := p7 c (by omega) h2
          exact ⟨c', by omega, q2, q3⟩
    · rw [if_neg ht]
      have hkl : k - 1 < (swap l j k).length := by rw [swap_length]; omega
      obtain ⟨p1, p2, p3, p4, p5, p6, p7⟩ := ih (swap l j k) j (k - 1) hkl (by omega)
      generalize sortInner t (swap l j k) j (k - 1) = r at *
      have hswap := typeAt_swap l j k hj hk
      refine ⟨p1.trans (swap_perm _ _ _), ?_, fun _ => by have := p3 (by omega); omega, p4, p5, ?_, ?_⟩
      · intro a ha
        rw [p2 a (by omega), hswap, if_neg (by omega), if_neg (by omega)]
      · intro a h1 h2
        by_cases hak : a = k
        · rw [hak, p2 k (Or.inr (by omega)), hswap, if_pos rfl]
          simp only [typeAt, List.getElem?_eq_getElem hj, Option.map_some, ne_eq, Option.some.injEq]
          exact fun h => ht h.symm
        · exact p6 a h1 (by omega)
      · intro c h1 h2
        by_cases hck : c = k
        · refine ⟨j, Nat.le_refl _, by omega, ?_⟩
          rw [hck, p2 k (Or.inr (by omega)), hswap, if_pos rfl]
        · obtain ⟨c', q1, q2, q3⟩ := p7 c h1 (by omega)
          rw [hswap, if_neg (by omega)] at q3
          by_cases hcj : c' = j
          · rw [if_pos hcj] at q3
            exact ⟨k, by omega, Nat.le_refl _, q3⟩
          · rw [if_neg hcj] at q3
            exact ⟨c', q1, by omega, q3⟩

/-- entries of equal type are next to each other -/
def Grouped (l : List (MixVar F)) : Prop :=
  ∀ a b c, a < b → b < c → c < l.length → typeAt l a = typeAt l c → typeAt l b = typeAt l a

theorem sortOuter_spec (l : List (MixVar F)) (i : Nat)
    (hA : ∀ a c, a < i → i < c → c < l.length → typeAt l a ≠ typeAt l c)
    (hB : ∀ a b c, a < b → b < c → c ≤ i → c < l.length → typeAt l a = typeAt l c → typeAt l b = typeAt l a) :
    (sortOuter l.length l i).Perm l ∧ Grouped (sortOuter l.length l i) := by
  induction hn : l.length - i using Nat.strong_induction_on generalizing l i with
  | _ n ih =>
    unfold sortOuter
    by_cases hi : i < l.length
    · rw [dif_pos hi, List.getElem?_eq_getElem hi]
      simp only
      have hspec := sortInner_spec (l[i]).2 l (i + 1) (l.length - 1) (by omega)
      generalize hr : sortInner (l[i]).2 l (i + 1) (l.length - 1) = r at *
      obtain ⟨p1, p2, p3, p4, p5, p6, p7⟩ := hspec
      have hlen : r.1.length = l.length := p1.length_eq
      have hit : typeAt l i = some (l[i]).2 := by simp [typeAt, List.getElem?_eq_getElem hi]
      have hsame : ∀ a, i ≤ a → a < r.2 → typeAt r.1 a = some (l[i]).2 := by
        intro a h1 h2
        by_cases hai : a = i
        · rw [hai, p2 i (Or.inl (by omega)), hit]
        · exact p5 a (by omega) h2
      rw [← hlen]
      have := ih (r.1.length - r.2) (by omega) r.1 r.2 ?_ ?_ rfl
      · exact ⟨this.1.trans p1, this.2⟩
      · intro a c h1 h2 h3
        by_cases hai : a < i
        · rw [p2 a (Or.inl (by omega))]
          obtain ⟨c', q1, q2, q3⟩ := p7 c (by omega) (by omega)
          rw [q3]
          exact hA a c' hai (by omega) (by omega)
        · rw [hsame a (by omega) h1]
          exact (p6 c h2 (by omega)).symm
      · intro a b c h1 h2 h3 h4 h5
        by_cases hai : a < i
        · by_cases hci : c ≤ i
          · rw [p2 a (Or.inl (by omega)), p2 c (Or.inl (by omega))] at h5
            rw [p2 a (Or.inl (by omega)), p2 b (Or.inl (by omega))]
            exact hB a b c h1 h2 hci (by omega) h5
          · exfalso
            rw [p2 a (Or.inl (by omega))] at h5
            obtain ⟨c', q1, q2, q3⟩ := p7 c (by omega) (by omega)
            rw [q3] at h5
            exact hA a c' hai (by omega) (by omega) h5
        · rw [hsame a (by omega) (by omega), hsame b (by omega) (by omega)]
    · rw [dif_neg hi]
      exact ⟨List.Perm.refl _, fun a b c h1 h2 h3 => hB a b c h1 h2 (by omega) h3⟩

/-- `sort` permutes the list and puts entries of equal type next to each other -/
theorem sort_spec (l : List (MixVar F)) : (sort l).Perm l ∧ Grouped (sort l) :=
  sortOuter_spec l 0 (fun _ _ h => absurd h (Nat.not_lt_zero _)) (fun _ _ _ _ h2 h3 => by omega)

theorem grouped_tail {p : MixVar F} {l : List (MixVar F)} (h : Grouped (p :: l)) : Grouped l := by
  intro a b c h1 h2 h3 h4
  exact h (a + 1) (b + 1) (c + 1) (by omega) (by omega) (by simpa using h3) h4

theorem grouped_head {p q : MixVar F} {l : List (MixVar F)} (h : Grouped (p :: q :: l)) (hne : q.2 ≠ p.2) :
    p.2 ∉ (q :: l).map Prod.snd := by
  intro hm
  rw [List.mem_map] at hm
  obtain ⟨x, hx, hx2⟩ := hm
  rcases List.mem_cons.1 hx with rfl | hx
  · exact hne hx2
  · obtain ⟨c, hc, rfl⟩ := List.getElem_of_mem hx
    have := h 0 1 (c + 2) (by omega) (by omega) (by simpa using hc)
      (by simp [typeAt, List.getElem?_eq_getElem hc, hx2])
    simp [typeAt] at this
    exact hne this

/-! ### `merge` -/

variable [Field F]

/-- the running entry after `v` -/
def next (prev v : MixVar F) : MixVar F := if v.2 = prev.2 then (prev.1 + v.1, v.2) else v

/-- the entry that leaves the running position when `v` comes -/
def leave (prev v : MixVar F) : MixVar F := if v.2 = prev.2 then (0, 0) else prev

/-- all intermediate entries, the last one included -/
def inters : MixVar F → List (MixVar F) → List (MixVar F)
  | _, [] => []
  | prev, v :: vs => next prev v :: inters (next prev v) vs

/-- the merged entries, the last one excluded -/
def outs1 : MixVar F → List (MixVar F) → List (MixVar F)
  | _, [] => []
  | prev, v :: vs => leave prev v :: outs1 (next prev v) vs

/-- all merged entries -/
def mergedAll : MixVar F → List (MixVar F) → List (MixVar F)
  | prev, [] => [prev]
  | prev, v :: vs => leave prev v :: mergedAll (next prev v) vs

theorem mergeStep_fold (rest : List (MixVar F)) (I O : List (MixVar F)) (prev : MixVar F) :
    (rest.foldl mergeStep (I, O, prev)).1 = I ++ inters prev rest ∧
      (rest.foldl mergeStep (I, O, prev)).2.1 = O ++ outs1 prev rest := by
  induction rest generalizing I O prev with
  | nil => simp [inters, outs1]
  | cons v vs ih =>
    rw [List.foldl_cons]
    have hstep : mergeStep (I, O, prev) v = (I ++ [next prev v], O ++ [leave prev v], next prev v) := by
      unfold mergeStep next leave
      by_cases h : v.2 = prev.2
      · simp [h]
      · simp [h]
    rw [hstep, (ih _ _ _).1, (ih _ _ _).2]
    simp [inters, outs1]

theorem mergedAll_eq (prev : MixVar F) (rest : List (MixVar F)) :
    ∃ last, (prev :: inters prev rest).getLast? = some last ∧ mergedAll prev rest = outs1 prev rest ++ [last] := by
  induction rest generalizing prev with
  | nil => exact ⟨prev, rfl, rfl⟩
  | cons v vs ih =>
    obtain ⟨last, h1, h2⟩ := ih (next prev v)
    refine ⟨last, ?_, by simp [mergedAll, outs1, h2]⟩
    rw [inters, List.getLast?_cons_cons]
    exact h1

theorem gateOk_step (prev v : MixVar F) : GateOk prev v (leave prev v) (next prev v) := by
  unfold leave next
  by_cases h : v.2 = prev.2
  · rw [if_pos h, if_pos h]
    obtain ⟨x, t⟩ := prev
    obtain ⟨y, t'⟩ := v
    simp only at h
    subst h
    exact GateOk.merge _ _ _ _
  · rw [if_neg h, if_neg h]
    exact GateOk.keep _ _

theorem chain_honest (prev v : MixVar F) (rest : List (MixVar F)) :
    Chain (prev :: (inters prev (v :: rest)).dropLast) (v :: rest) (outs1 prev (v :: rest)) (inters prev (v :: rest)) := by
  induction rest generalizing prev v with
  | nil => exact Chain.cons (gateOk_step _ _) Chain.nil
  | cons w rest ih =>
    have := ih (next prev v) w
    rw [inters, outs1]
    rw [show (next prev v :: inters (next prev v) (w :: rest)).dropLast =
      next prev v :: (inters (next prev v) (w :: rest)).dropLast by simp [inters]]
    exact Chain.cons (gateOk_step _ _) this

/-- `merge` on a list of at least two entries -/
theorem merge_spec (v w : MixVar F) (rest : List (MixVar F)) :
    ∃ inter last, merge (v :: w :: rest) = .ok (inter, mergedAll v (w :: rest)) ∧
      (mergedAll v (w :: rest)).getLast? = some last ∧ inter.length = rest.length ∧
      Chain (v :: inter) (w :: rest) (mergedAll v (w :: rest)).dropLast (inter ++ [last]) := by
  obtain ⟨last, h1, h2⟩ := mergedAll_eq v (w :: rest)
  have hl : (inters v (w :: rest)).getLast? = some last := by
    rw [inters, List.getLast?_cons_cons] at h1
    rw [inters]
    exact h1
  refine ⟨(inters v (w :: rest)).dropLast, last, ?_, by rw [h2]; simp, ?_, ?_⟩
  · unfold merge
    simp only [(mergeStep_fold (w :: rest) [] [] v).1, (mergeStep_fold (w :: rest) [] [] v).2, List.nil_append, hl, h2]
  · rw [List.length_dropLast]
    have : ∀ (p : MixVar F) l, (inters p l).length = l.length := by
      intro p l
      induction l generalizing p with
      | nil => rfl
      | cons x l ih => simp [inters, ih]
    rw [this]; simp
  · rw [h2, List.dropLast_concat, List.dropLast_append_getLast? _ hl]
    exact chain_honest v w rest

/-- the total of a type in the field -/
def ftotal (t : F) (l : List (MixVar F)) : F := ((l.filter fun p => p.2 = t).map Prod.fst).sum

theorem ftotal_cons (t : F) (p : MixVar F) (l : List (MixVar F)) :
    ftotal t (p :: l) = (if p.2 = t then p.1 else 0) + ftotal t l := by
  unfold ftotal
  by_cases h : p.2 = t <;> simp [h]

theorem ftotal_not_mem (t : F) (l : List (MixVar F)) (h : t ∉ l.map Prod.snd) : ftotal t l = 0 := by
  induction l with
  | nil => rfl
  | cons p l ih =>
    simp only [List.map_cons, List.mem_cons, not_or] at h
    rw [ftotal_cons, if_neg (Ne.symm h.1), ih h.2, zero_add]

theorem ftotal_perm (t : F) {l l' : List (MixVar F)} (h : l.Perm l') : ftotal t l = ftotal t l' :=
  ((h.filter _).map _).sum_eq

/-- one entry per type, with its total -/
def summary (l : List (MixVar F)) : List (MixVar F) := ((l.map Prod.snd).dedup).map fun t => (ftotal t l, t)

theorem mergedAll_perm (prev : MixVar F) (rest : List (MixVar F)) (hg : Grouped (prev :: rest)) :
    (mergedAll prev rest).Perm
      (List.replicate (rest.length + 1 - (summary (prev :: rest)).length) (0, 0) ++ summary (prev :: rest)) := by
  induction rest generalizing prev with
  | nil => simp [mergedAll, summary, ftotal]
  | cons v vs ih =>
    have hle : ∀ l : List (MixVar F), (summary l).length ≤ l.length := by
      intro l
      rw [summary, List.length_map]
      exact (List.dedup_sublist _).length_le.trans (by simp)
    by_cases h : v.2 = prev.2
    · have e1 : next prev v = (prev.1 + v.1, v.2) := if_pos h
      have e2 : leave prev v = (0, 0) := if_pos h
      have hs : summary (prev :: v :: vs) = summary ((prev.1 + v.1, v.2) :: vs) := by
        unfold summary
        simp only [List.map_cons]
        rw [List.dedup_cons_of_mem (by simp [h])]
        refine List.map_congr_left fun t _ => ?_
        simp only [ftotal_cons, h, Prod.mk.injEq, and_true]
        by_cases ht : prev.2 = t
        · simp [ht, add_assoc]
        · simp [ht]
      have hg' : Grouped ((prev.1 + v.1, v.2) :: vs) := by
        intro a b c h1 h2 h3 h4
        have ht : ∀ i, typeAt ((prev.1 + v.1, v.2) :: vs) i = typeAt (v :: vs) i := by
          intro i
          cases i <;> rfl
        rw [ht, ht] at h4 ⊢
        exact grouped_tail hg a b c h1 h2 (by simpa using h3) h4
      rw [mergedAll, e1, e2, hs]
      refine ((ih _ hg').cons _).trans ?_
      rw [← List.cons_append, ← List.replicate_succ]
      have := hle ((prev.1 + v.1, v.2) :: vs)
      rw [List.length_cons] at this
      rw [show vs.length + 1 - (summary ((prev.1 + v.1, v.2) :: vs)).length + 1 =
        (v :: vs).length + 1 - (summary ((prev.1 + v.1, v.2) :: vs)).length by simp only [List.length_cons]; omega]
    · have e1 : next prev v = v := if_neg h
      have e2 : leave prev v = prev := if_neg h
      have hnot := grouped_head hg h
      have hs : summary (prev :: v :: vs) = prev :: summary (v :: vs) := by
        unfold summary
        rw [List.map_cons, List.dedup_cons_of_notMem hnot, List.map_cons]
        congr 1
        · rw [ftotal_cons, if_pos rfl, ftotal_not_mem _ _ hnot, add_zero]
        · refine List.map_congr_left fun t ht => ?_
          rw [List.mem_dedup] at ht
          rw [ftotal_cons, if_neg (fun hh : prev.2 = t => hnot (hh ▸ ht)), zero_add]
      rw [mergedAll, e1, e2, hs]
      refine ((ih v (grouped_tail hg)).cons _).trans ?_
      rw [List.length_cons, List.length_cons, Nat.add_sub_add_right]
      exact List.perm_middle.symm

/-! ### runs -/

theorem holds_shuffle (a b : List (MixVar F)) (h2 : 2 ≤ a.length) (h : a.Perm b) (ch : Chal F) :
    Holds (shuffleClosure a b ch) := by
  rw [shuffleClosure_eq a b h.length_eq h2]
  refine ⟨_, rfl, ?_⟩
  intro c hc
  rw [List.mem_singleton] at hc
  rw [hc, ((h.map _).map _).prod_eq, sub_self]

theorem holds_gate {i1 i2 o1 o2 : MixVar F} (h : GateOk i1 i2 o1 o2) (ch : Chal F) : Holds (gateClosure i1 i2 o1 o2 ch) := by
  refine ⟨_, rfl, fun c hc => ?_⟩
  rw [List.mem_singleton] at hc
  rw [hc]
  cases h with
  | keep => ring
  | merge => ring

theorem complete_allocatePair (x : MixVar F) (v : Option (MixVar F)) :
    Complete (allocatePair (some x)) (allocatePair v) (fun y => y = x) :=
  Complete.bind (complete_allocate _ _) fun _ h1 => Complete.bind (complete_allocate _ _) fun _ h2 =>
    Complete.ret (by rw [h1, h2])

/-- allocating the values `vs` one after the other, whatever the verifier passes -/
theorem complete_loop (vs : List (MixVar F)) (w : Option (MixVar F)) (acc : List (MixVar F)) :
    Complete
      (forM' vs (fun acc v => do
        let v ← allocatePair (some v)
        pure (acc ++ [v])) acc)
      (forM' (List.replicate vs.length ()) (fun acc _ => do
        let v ← allocatePair w
        pure (acc ++ [v])) acc)
      (fun l => l = acc ++ vs) := by
  induction vs generalizing acc with
  | nil => exact Complete.ret (by simp)
  | cons v vs ih =>
    rw [List.length_cons, List.replicate_succ]
    refine Complete.bind (P := fun l => l = acc ++ [v])
      (Complete.bind (complete_allocatePair v w) fun y hy => Complete.ret (by rw [hy])) fun l hl => ?_
    subst hl
    exact (ih _).cons fun a ha => by simpa using ha

theorem complete_vector (vs : List (MixVar F)) (n : Nat) (h : n = vs.length) :
    Complete (allocateMixVector (some vs) n) (allocateMixVector none n) (fun l => l = vs) := by
  subst h
  exact (complete_loop vs none []).cons fun a ha => by simpa using ha

theorem complete_mixShuffle {a b : List (MixVar F)} (h : a.Perm b) :
    Complete (mixShuffle a b) (mixShuffle a b) (fun _ => True) := by
  unfold mixShuffle
  rw [if_neg (by simpa using h.length_eq)]
  match a, b, h.length_eq with
  | [], [], _ => exact Complete.ret trivial
  | [x], [y], _ =>
    have : x = y := by simpa using h
    subst this
    exact Complete.bind (complete_constrain (by simp)) fun _ _ => Complete.bind (complete_constrain (by simp)) fun _ _ =>
      Complete.ret trivial
  | x :: x' :: a, y :: y' :: b, _ =>
    exact Complete.bind (complete_specify (holds_shuffle _ _ (by simp) h)) fun _ _ => Complete.ret trivial

theorem complete_mergeGates {in1 in2 out1 out2 : List (MixVar F)} (h : Chain in1 in2 out1 out2) (n : Nat) :
    Complete (mergeGates in1 in2 out1 out2 n) (mergeGates in1 in2 out1 out2 n) (fun _ => True) := by
  induction h generalizing n with
  | nil => exact Complete.ret trivial
  | cons hg _ ih =>
    unfold mergeGates gateMixOrNot
    exact Complete.bind (P := fun _ => True)
      (Complete.bind (complete_specify (holds_gate hg)) fun _ _ => Complete.ret trivial) fun _ _ => ih _

theorem chain_length {in1 in2 out1 out2 : List (MixVar F)} (h : Chain in1 in2 out1 out2) :
    in1.length = in2.length ∧ out1.length = in2.length ∧ out2.length = in2.length := by
  induction h with
  | nil => simp
  | cons _ _ ih => simp [ih.1, ih.2.1, ih.2.2]

theorem complete_mixMerge {first : MixVar F} {rest inter merged : List (MixVar F)} {last : MixVar F}
    (hne : rest ≠ []) (hl : merged.getLast? = some last)
    (h : Chain (first :: inter) rest merged.dropLast (inter ++ [last])) :
    Complete (mixMerge (first :: rest) inter merged) (mixMerge (first :: rest) inter merged) (fun _ => True) := by
  obtain ⟨l1, l2, l3⟩ := chain_length h
  match rest, merged, hne, hl with
  | r :: rest, m :: ms, _, hl =>
    unfold mixMerge
    simp only [List.length_cons, List.length_dropLast, List.length_append, List.length_nil] at l1 l2 l3
    simp only [List.length_cons]
    rw [if_neg (by omega), if_neg (by omega), hl]
    exact complete_mergeGates h _

/-- `sort_and_merge` on two or more variables, with any reordering and merging the prover likes -/
theorem complete_sortAndMergeVars {vars : List (MixVar F)} {first : MixVar F} {rest inter merged : List (MixVar F)}
    {last : MixVar F} (hp : vars.Perm (first :: rest)) (hne : rest ≠ []) (hl : merged.getLast? = some last)
    (h : Chain (first :: inter) rest merged.dropLast (inter ++ [last])) :
    Complete (sortAndMergeVars vars (some (first :: rest)) (some (inter, merged)))
      (sortAndMergeVars vars none none) (fun r => r.2 = merged) := by
  obtain ⟨l1, l2, l3⟩ := chain_length h
  have hv := hp.length_eq
  have hm : merged ≠ [] := by rintro rfl; simp at hl
  have hm' := List.length_pos_iff.2 hm
  simp only [List.length_cons, List.length_dropLast, List.length_append, List.length_nil] at l1 l2 l3 hv
  unfold sortAndMergeVars
  refine Complete.bind (complete_vector _ _ (by simpa using hv)) fun s hs =>
    Complete.bind (complete_vector inter _ (by omega)) fun i hi =>
    Complete.bind (complete_vector merged _ (by omega)) fun m hm => ?_
  subst hs hi hm
  exact Complete.bind (complete_mixShuffle hp) fun _ _ =>
    Complete.bind (complete_mixMerge hne hl h) fun _ _ => Complete.ret rfl

/-- the honest `sort_and_merge` -/
theorem complete_sortAndMerge (v : MixVar F) (vs : List (MixVar F)) :
    Complete (sortAndMerge (v :: vs) (some (v :: vs))) (sortAndMerge (v :: vs) none) (fun r =>
      r.2.Perm (List.replicate ((v :: vs).length - (summary (v :: vs)).length) (0, 0) ++ summary (v :: vs))) := by
  cases vs with
  | nil =>
    refine Complete.bind (complete_vector [v] 1 rfl) fun l hl => Complete.ret ?_
    rw [hl]
    simp [summary, ftotal]
  | cons w vs =>
    obtain ⟨hp, hg⟩ := sort_spec (v :: w :: vs)
    have hlen := hp.length_eq
    match hs : sort (v :: w :: vs), hlen with
    | a :: b :: rest, hlen =>
      rw [hs] at hp hg
      obtain ⟨inter, last, hm, hl, hil, hc⟩ := merge_spec a b rest
      have e : sortAndMerge (v :: w :: vs) (some (v :: w :: vs)) =
          sortAndMergeVars (v :: w :: vs) (some (a :: b :: rest)) (some (inter, mergedAll a (b :: rest))) := by
        funext st
        simp only [sortAndMerge, hs, hm]
        rfl
      rw [e]
      refine (complete_sortAndMergeVars hp.symm (by simp) hl hc).cons fun r hr => ?_
      rw [hr]
      refine (mergedAll_perm a (b :: rest) hg).trans ?_
      have hsum : (summary (a :: b :: rest)).Perm (summary (v :: w :: vs)) := by
        unfold summary
        have h1 : ((a :: b :: rest).map Prod.snd).dedup.Perm ((v :: w :: vs).map Prod.snd).dedup :=
          (hp.map _).dedup
        refine (h1.map _).trans (List.Perm.of_eq (List.map_congr_left fun t _ => ?_))
        rw [ftotal_perm t hp]
      rw [hsum.length_eq]
      rw [show (b :: rest).length + 1 = (v :: w :: vs).length by simpa using hlen]
      exact hsum.append_left _

/-- padding with values of the prover's choice -/
theorem complete_padWith (n : Nat) (list e : List (MixVar F)) (he : e.length = n - list.length) :
    Complete
      (forM' e (fun acc v => do
        let v ← allocatePair (some v)
        pure (acc ++ [v])) list) (pad n list) (fun l => l = list ++ e) := by
  unfold pad
  rw [← he]
  exact complete_loop e _ list

/-- honest padding -/
theorem complete_pad (n : Nat) (list : List (MixVar F)) :
    Complete (pad n list) (pad n list) (fun l => l = list ++ List.replicate (n - list.length) (0, 0)) := by
  unfold pad
  generalize n - list.length = k
  induction k generalizing list with
  | zero => exact Complete.ret (by simp)
  | succ k ih =>
    rw [List.replicate_succ]
    refine Complete.bind (P := fun l => l = list ++ [(0, 0)])
      (Complete.bind (complete_allocatePair _ _) fun y hy => Complete.ret (by rw [hy])) fun l hl => ?_
    subst hl
    refine (ih _).cons fun a ha => ?_
    rw [ha, List.append_assoc, List.replicate_succ]
    rfl

theorem complete_mixRanges [ScalarRepr F] (N : List (Nat × F)) (hN : ∀ p ∈ N, p.1 < 2 ^ 64)
    (ho : ∀ p ∈ N, p.1 < ScalarRepr.order F) (n : Nat) :
    Complete (mixRanges (vals N) (some (vals N)) n) (mixRanges (vals N) none n) (fun _ => True) := by
  induction N generalizing n with
  | nil => exact Complete.ret trivial
  | cons p N ih =>
    have hp := hN p List.mem_cons_self
    refine Complete.bind (complete_range _ _ ?_ rfl) fun g _ =>
      ih (fun q hq => hN q (List.mem_cons_of_mem _ hq)) (fun q hq => ho q (List.mem_cons_of_mem _ hq)) _
    rw [ScalarRepr.val_cast _ (ho p List.mem_cons_self)]
    exact hp

end
end Verif.R1cs
