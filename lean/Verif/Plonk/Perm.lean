import Mathlib.Data.List.Perm.Basic
import Mathlib.Data.List.Nodup
import Mathlib.Data.List.NodupEquivFin
import Mathlib.Data.Fintype.EquivFin
import Mathlib.Logic.Function.Iterate
import Verif.Plonk.Arith

/-!
Property C48: the permutation computed from the wiring is a permutation of the wire positions whose cycles are
exactly the sets of positions carrying the same variable; a wire assignment is invariant under it iff it comes
from an assignment of variables.
-/

namespace Verif.Plonk

/-- `q` is the position after `p`, in cyclic order, among the positions of `v` holding the same variable as `p`. -/
def IsNext (v : List Nat) (p q : Nat) : Prop :=
  ∃ x, v[p]? = some x ∧ v[q]? = some x ∧
    ((p < q ∧ ∀ r, p < r → r < q → v[r]? ≠ some x) ∨
     (q ≤ p ∧ (∀ r, r < q → v[r]? ≠ some x) ∧ ∀ r, p < r → v[r]? ≠ some x))

theorem permInner_spec (v : List Nat) (x : Nat) (ys : List Nat) (j : Nat) (perm : List Nat) (prev : Nat)
    (hys : ys = v.drop j) (hprev : prev < j) (hx : v[prev]? = some x)
    (hno : ∀ r, prev < r → r < j → v[r]? ≠ some x) (hlen : perm.length = v.length) :
    (permInner x ys j (perm, prev)).1.length = v.length ∧
    v[(permInner x ys j (perm, prev)).2]? = some x ∧ prev ≤ (permInner x ys j (perm, prev)).2 ∧
    (∀ r, (permInner x ys j (perm, prev)).2 < r → v[r]? ≠ some x) ∧
    (∀ p, (v[p]? ≠ some x ∨ p < prev) → (permInner x ys j (perm, prev)).1[p]? = perm[p]?) ∧
    (∀ p, v[p]? = some x → prev ≤ p → p < (permInner x ys j (perm, prev)).2 →
      ∃ q, (permInner x ys j (perm, prev)).1[p]? = some q ∧ p < q ∧ v[q]? = some x ∧
        ∀ r, p < r → r < q → v[r]? ≠ some x) := by
  induction ys generalizing j perm prev with
  | nil =>
    simp only [permInner]
    refine ⟨hlen, hx, le_refl _, ?_, fun _ _ => trivial, fun p _ h1 h2 => absurd h2 (by omega)⟩
    intro r hr h
    by_cases hrj : r < j
    · exact hno r hr hrj h
    · have : v.length ≤ j := List.drop_eq_nil_iff.mp hys.symm
      have := (List.getElem?_eq_some_iff.mp h).1
      omega
  | cons y ys ih =>
    have hj : v[j]? = some y := by
      have := congrArg (fun l => l[0]?) hys
      simpa using this.symm
    have hys' : ys = v.drop (j + 1) := by
      have := congrArg (List.drop 1) hys
      simpa [List.drop_drop] using this
    rw [permInner]
    split
    · rename_i hyx
      subst hyx
      obtain ⟨h1, h2, h3, h4, h5, h6⟩ := ih (j + 1) (perm.set prev j) j hys' (by omega) hj
        (fun r h1 h2 => by omega) (by simp [hlen])
      refine ⟨h1, h2, by omega, h4, ?_, ?_⟩
      · intro p hp
        rw [h5 p (by rcases hp with hp | hp; · exact .inl hp
                     · exact .inr (by omega))]
        have hne : prev ≠ p := by
          rcases hp with hp | hp
          · rintro rfl; exact hp hx
          · omega
        rw [List.getElem?_set_ne hne]
      · intro p hp hge hlt
        by_cases hpj : j ≤ p
        · exact h6 p hp hpj hlt
        · have hpp : p = prev := by
            by_contra hne
            exact hno p (by omega) (by omega) hp
          subst hpp
          refine ⟨j, ?_, hprev, hj, hno⟩
          rw [h5 p (.inr hprev)]
          have : p < perm.length := by rw [hlen]; exact (List.getElem?_eq_some_iff.mp hx).1
          rw [List.getElem?_set_self this]
    · rename_i hyx
      exact ih (j + 1) perm prev hys' (by omega) hx (by
        intro r h1 h2 h
        by_cases hrj : r < j
        · exact hno r h1 hrj h
        · have : r = j := by omega
          subst this
          rw [hj] at h
          exact hyx (Option.some.inj h)) hlen

theorem permOuter_spec (v : List Nat) (nv : Nat) (hv : ∀ x ∈ v, x < nv) (xs : List Nat) (i : Nat) (perm : List Nat)
    (marked : List Bool) (hxs : xs = v.drop i) (hlen : perm.length = v.length) (hml : marked.length = nv)
    (hmark : ∀ x, x < nv → (marked[x]? = some true ↔ ∃ p, p < i ∧ v[p]? = some x))
    (hnext : ∀ (p x : Nat), v[p]? = some x → marked[x]? = some true → ∃ q, perm[p]? = some q ∧ IsNext v p q) :
    (permOuter xs i (perm, marked)).1.length = v.length ∧
    ∀ p, p < v.length → ∃ q, (permOuter xs i (perm, marked)).1[p]? = some q ∧ IsNext v p q := by
  induction xs generalizing i perm marked with
  | nil =>
    rw [permOuter]
    refine ⟨hlen, ?_⟩
    intro p hp
    have hi : v.length ≤ i := List.drop_eq_nil_iff.mp hxs.symm
    have hpx := List.getElem?_eq_getElem hp
    exact hnext p _ hpx ((hmark _ (hv _ (List.getElem_mem hp))).mpr ⟨p, by omega, hpx⟩)
  | cons x xs ih =>
    have hi : v[i]? = some x := by
      have := congrArg (fun l => l[0]?) hxs
      simpa using this.symm
    have hxs' : xs = v.drop (i + 1) := by
      have := congrArg (List.drop 1) hxs
      simpa [List.drop_drop] using this
    have hxn : x < nv := hv x (List.mem_of_getElem? hi)
    have hil : i < v.length := (List.getElem?_eq_some_iff.mp hi).1
    rw [permOuter]
    have hget : marked[x]?.getD false = true ↔ marked[x]? = some true := by
      rw [List.getElem?_eq_getElem (by omega)]; simp
    split
    · rename_i hm
      rw [hget] at hm
      refine ih (i + 1) perm marked hxs' hlen hml ?_ hnext
      intro y hy
      rw [hmark y hy]
      constructor
      · rintro ⟨p, h1, h2⟩; exact ⟨p, by omega, h2⟩
      · rintro ⟨p, h1, h2⟩
        by_cases hpi : p < i
        · exact ⟨p, hpi, h2⟩
        · have : p = i := by omega
          subst this
          rw [hi] at h2
          cases h2
          exact (hmark x hxn).mp hm
    · rename_i hm
      rw [hget] at hm
      have hfirst : ∀ r, r < i → v[r]? ≠ some x := fun r hr h => hm ((hmark x hxn).mpr ⟨r, hr, h⟩)
      obtain ⟨h1, h2, h3, h4, h5, h6⟩ := permInner_spec v x xs (i + 1) perm i hxs' (by omega) hi
        (fun r h1 h2 => by omega) hlen
      simp only
      refine ih (i + 1) _ _ hxs' (by simp [h1]) (by simp [hml]) ?_ ?_
      · intro y hy
        by_cases hyx : y = x
        · subst hyx
          rw [List.getElem?_set_self (by omega)]
          simp only [true_iff]
          exact ⟨i, by omega, hi⟩
        · rw [List.getElem?_set_ne (fun h => hyx h.symm), hmark y hy]
          constructor
          · rintro ⟨p, k1, k2⟩; exact ⟨p, by omega, k2⟩
          · rintro ⟨p, k1, k2⟩
            by_cases hpi : p < i
            · exact ⟨p, hpi, k2⟩
            · have : p = i := by omega
              rw [this, hi] at k2
              cases k2
              exact absurd rfl hyx
      · intro p y hp hmy
        by_cases hyx : y = x
        · subst hyx
          have hip : i ≤ p := by
            by_contra h
            exact hfirst p (by omega) hp
          by_cases hlast : p = (permInner y xs (i + 1) (perm, i)).2
          · refine ⟨i, ?_, y, hp, hi, .inr ⟨hip, hfirst, ?_⟩⟩
            · rw [← hlast, List.getElem?_set_self]
              rw [h1]; exact (List.getElem?_eq_some_iff.mp hp).1
            · rw [hlast]; exact h4
          · have hplt : p < (permInner y xs (i + 1) (perm, i)).2 := by
              by_contra h
              exact h4 p (by omega) hp
            obtain ⟨q, e, hq, hvq, hb⟩ := h6 p hp hip hplt
            refine ⟨q, ?_, y, hp, hvq, .inl ⟨hq, hb⟩⟩
            rw [List.getElem?_set_ne (by omega)]
            exact e
        · have hne : (permInner x xs (i + 1) (perm, i)).2 ≠ p := by
            rintro rfl
            rw [h2] at hp
            exact hyx (Option.some.inj hp).symm
          rw [List.getElem?_set_ne hne, h5 p (.inl (by rw [hp]; simpa using hyx))]
          rw [List.getElem?_set_ne (fun h => hyx h.symm)] at hmy
          exact hnext p y hp hmy

theorem computePermutation_spec (v : List Nat) (nv : Nat) (hv : ∀ x ∈ v, x < nv) :
    (computePermutation v nv).length = v.length ∧
    ∀ p, p < v.length → ∃ q, (computePermutation v nv)[p]? = some q ∧ IsNext v p q := by
  refine permOuter_spec v nv hv v 0 _ _ (by simp) (by simp) (by simp) ?_ ?_
  · intro x hx
    rw [List.getElem?_replicate]
    simp [hx]
  · intro p x _ hm
    rw [List.getElem?_replicate] at hm
    split at hm <;> simp at hm

theorem isNext_inj {v : List Nat} {p p' q : Nat} (h : IsNext v p q) (h' : IsNext v p' q) : p = p' := by
  obtain ⟨x, h1, h2, h3⟩ := h
  obtain ⟨x', h1', h2', h3'⟩ := h'
  rw [h2] at h2'
  cases h2'
  by_contra hne
  rcases h3 with ⟨a, b⟩ | ⟨a, b, c⟩ <;> rcases h3' with ⟨a', b'⟩ | ⟨a', b', c'⟩
  · rcases Nat.lt_or_gt_of_ne hne with h | h
    · exact b p' h a' h1'
    · exact b' p h a h1
  · exact b' p a h1
  · exact b p' a' h1'
  · rcases Nat.lt_or_gt_of_ne hne with h | h
    · exact c p' h h1'
    · exact c' p h h1

/-- the computed permutation as a function on positions -/
def permAt (perm : List Nat) (p : Nat) : Nat := perm[p]?.getD p

theorem isNext_permAt {v : List Nat} {nv : Nat} (hv : ∀ x ∈ v, x < nv) {p : Nat} (hp : p < v.length) :
    IsNext v p (permAt (computePermutation v nv) p) := by
  obtain ⟨q, e, h⟩ := (computePermutation_spec v nv hv).2 p hp
  unfold permAt
  rw [e]
  exact h

/-- going up through the occurrences -/
theorem reach_up {v : List Nat} {nv : Nat} (hv : ∀ x ∈ v, x < nv) (d : Nat) : ∀ (p q x : Nat), q = p + d →
    v[p]? = some x → v[q]? = some x → ∃ k, (permAt (computePermutation v nv))^[k] p = q := by
  induction d using Nat.strong_induction_on with
  | _ d ih =>
    intro p q x hd hp hq
    by_cases h0 : d = 0
    · exact ⟨0, by simp; omega⟩
    · obtain ⟨y, e1, e2, h⟩ := isNext_permAt hv (List.getElem?_eq_some_iff.mp hp).1
      rw [hp] at e1
      cases e1
      set s := permAt (computePermutation v nv) p with hs
      rcases h with ⟨a, b⟩ | ⟨a, b, c⟩
      · have hsq : s ≤ q := by
          by_contra hlt
          exact b q (by omega) (by omega) hq
        obtain ⟨k, hk⟩ := ih (q - s) (by omega) s q x (by omega) e2 hq
        exact ⟨k + 1, by rw [Function.iterate_succ_apply, ← hs, hk]⟩
      · exact absurd hq (c q (by omega))

/-- wrapping around to the first occurrence -/
theorem reach_first {v : List Nat} {nv : Nat} (hv : ∀ x ∈ v, x < nv) (m : Nat) : ∀ (p x : Nat), m = v.length - p →
    v[p]? = some x → ∃ k, (∀ r, r < (permAt (computePermutation v nv))^[k] p → v[r]? ≠ some x) ∧
      v[(permAt (computePermutation v nv))^[k] p]? = some x := by
  induction m using Nat.strong_induction_on with
  | _ m ih =>
    intro p x hm hp
    obtain ⟨y, e1, e2, h⟩ := isNext_permAt hv (List.getElem?_eq_some_iff.mp hp).1
    rw [hp] at e1
    cases e1
    rcases h with ⟨a, b⟩ | ⟨a, b, c⟩
    · have hl := (List.getElem?_eq_some_iff.mp e2).1
      have hpl := (List.getElem?_eq_some_iff.mp hp).1
      obtain ⟨k, h1, h2⟩ := ih (v.length - permAt (computePermutation v nv) p) (by omega) _ x rfl e2
      exact ⟨k + 1, by rw [Function.iterate_succ_apply]; exact ⟨h1, h2⟩⟩
    · exact ⟨1, by simpa using ⟨b, e2⟩⟩

/-- C48: the computed list is a permutation of the wire positions. -/
theorem C48_is_permutation (v : List Nat) (nv : Nat) (hv : ∀ x ∈ v, x < nv) :
    (computePermutation v nv).Perm (List.range v.length) := by
  obtain ⟨hl, h⟩ := computePermutation_spec v nv hv
  have hnd : (computePermutation v nv).Nodup := by
    rw [List.nodup_iff_injective_getElem]
    intro a b hab
    obtain ⟨q, e, hq⟩ := h a (by have := a.2; omega)
    obtain ⟨q', e', hq'⟩ := h b (by have := b.2; omega)
    rw [List.getElem?_eq_getElem a.2] at e
    rw [List.getElem?_eq_getElem b.2] at e'
    simp only at hab
    have : q = q' := by rw [← Option.some.inj e, ← Option.some.inj e', hab]
    subst this
    exact Fin.ext (isNext_inj hq hq')
  have hsub : computePermutation v nv ⊆ List.range v.length := by
    intro q hq
    obtain ⟨p, hp, rfl⟩ := List.mem_iff_getElem.mp hq
    obtain ⟨q, e, x, -, e2, -⟩ := h p (by omega)
    rw [List.getElem?_eq_getElem hp] at e
    rw [Option.some.inj e]
    exact List.mem_range.mpr (List.getElem?_eq_some_iff.mp e2).1
  have hsp := List.subperm_of_subset hnd hsub
  exact hsp.perm_of_length_le (by simp [hl])

/-- C48: two positions are in the same cycle iff they carry the same variable. -/
theorem C48_cycles_are_variables (v : List Nat) (nv : Nat) (hv : ∀ x ∈ v, x < nv) (p q : Nat) (hp : p < v.length)
    (hq : q < v.length) :
    (∃ k, (permAt (computePermutation v nv))^[k] p = q) ↔ v[p]? = v[q]? := by
  constructor
  · rintro ⟨k, hk⟩
    induction k generalizing p with
    | zero => simp at hk; rw [hk]
    | succ k ih =>
      rw [Function.iterate_succ_apply] at hk
      obtain ⟨x, e1, e2, -⟩ := isNext_permAt (nv := nv) hv hp
      rw [← ih _ (List.getElem?_eq_some_iff.mp e2).1 hk, e1, e2]
  · intro heq
    have e1 := List.getElem?_eq_getElem hp
    have e2 : v[q]? = some v[p] := by rw [← heq, e1]
    obtain ⟨k, h1, h2⟩ := reach_first hv _ p v[p] rfl e1
    have hle : (permAt (computePermutation v nv))^[k] p ≤ q := by
      by_contra h
      exact h1 q (by omega) e2
    obtain ⟨k', hk'⟩ := reach_up hv (q - (permAt (computePermutation v nv))^[k] p) _ q v[p] (by omega) h2 e2
    exact ⟨k' + k, by rw [Function.iterate_add_apply, hk']⟩

/-- C48: wire values are invariant under the permutation iff they are the values of an assignment of variables, that
is iff they have the form `extend_witness` produces. -/
theorem C48_invariant_iff_assignment {F : Type} [Field F] (v : List Nat) (nv : Nat) (hv : ∀ x ∈ v, x < nv)
    (xs : List F) (hl : xs.length = v.length) :
    (∀ p : Nat, p < v.length → xs[permAt (computePermutation v nv) p]? = xs[p]?) ↔
      ∃ w : List F, w.length = nv ∧ extendWitness v w = some xs := by
  constructor
  · intro hinv
    have hiter : ∀ (k p : Nat), p < v.length → xs[(permAt (computePermutation v nv))^[k] p]? = xs[p]? := by
      intro k
      induction k with
      | zero => intro p _; rfl
      | succ k ih =>
        intro p hp
        rw [Function.iterate_succ_apply]
        obtain ⟨x, e1, e2, -⟩ := isNext_permAt (nv := nv) hv hp
        rw [ih _ (List.getElem?_eq_some_iff.mp e2).1, hinv p hp]
    have hsame : ∀ p q : Nat, p < v.length → q < v.length → v[p]? = v[q]? → xs[p]? = xs[q]? := by
      intro p q hp hq h
      obtain ⟨k, hk⟩ := (C48_cycles_are_variables v nv hv p q hp hq).mpr h
      rw [← hk, hiter k p hp]
    refine ⟨(List.range nv).map (fun x => xs[v.idxOf x]?.getD 0), by simp, ?_⟩
    have hval : ∀ p (hp : p < v.length), ((List.range nv).map (fun x => xs[v.idxOf x]?.getD 0))[v[p]]? = xs[p]? := by
      intro p hp
      have hlt := hv v[p] (List.getElem_mem hp)
      rw [List.getElem?_map, List.getElem?_range hlt, Option.map_some]
      have hidx : v.idxOf v[p] < v.length := List.idxOf_lt_length_of_mem (List.getElem_mem hp)
      have : xs[v.idxOf v[p]]? = xs[p]? := by
        apply hsame _ _ hidx hp
        rw [List.getElem?_eq_getElem hidx, List.getElem?_eq_getElem hp, List.getElem_idxOf]
      rw [this, List.getElem?_eq_getElem (by omega)]
      rfl
    generalize (List.range nv).map (fun x => xs[v.idxOf x]?.getD 0) = w at hval
    clear hsame hiter hinv
    unfold extendWitness
    clear hv
    induction v generalizing xs with
    | nil =>
      have : xs = [] := List.length_eq_zero_iff.mp (by simpa using hl)
      subst this; rfl
    | cons a v ih =>
      cases xs with
      | nil => simp at hl
      | cons x xs =>
        have h0 := hval 0 (by simp)
        simp only [List.getElem_cons_zero, List.getElem?_cons_zero] at h0
        rw [List.mapM_cons, h0]
        have := ih xs (by simpa using hl) (fun p hp => by
          have := hval (p + 1) (by simpa using hp)
          simpa using this)
        rw [this]
        rfl
  · rintro ⟨w, hw, he⟩ p hp
    have hval : ∀ p (hp : p < v.length), xs[p]? = w[v[p]]? := by
      clear hv hp p
      unfold extendWitness at he
      induction v generalizing xs with
      | nil => intro p hp; simp at hp
      | cons a v ih =>
        rw [List.mapM_cons] at he
        obtain ⟨x, h1, h2⟩ := Option.bind_eq_some_iff.mp he
        obtain ⟨ys, h3, h4⟩ := Option.bind_eq_some_iff.mp h2
        simp only [Pure.pure, Option.some.injEq] at h4
        subst h4
        intro p hp
        cases p with
        | zero => simp [h1]
        | succ p =>
          have := ih ys (by simpa using hl) h3 p (by simpa using hp)
          simpa using this
    obtain ⟨x, e1, e2, -⟩ := isNext_permAt (nv := nv) hv hp
    obtain ⟨hq, e2'⟩ := List.getElem?_eq_some_iff.mp e2
    have e1' := (List.getElem?_eq_some_iff.mp e1).2
    rw [hval _ hq, hval _ hp, e1', e2']

/-- a wiring with a variable on three wires, one on two and one alone -/
example : computePermutation [2, 0, 2, 1, 0, 2] 3 = [2, 4, 5, 3, 1, 0] := by decide

end Verif.Plonk
