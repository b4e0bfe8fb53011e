import Verif.Serde.ReadBodies

/-!
The texts that are read as a public amount (`serde_str` over `u64::from_str`), C98.
-/

namespace Verif.Serde

/-- what the fold over digits computes, and when -/
theorem foldl_digitStep {t : Bytes} {m n : Nat} (h : t.foldl digitStep (some m) = some n) :
    ∃ ds : List Nat, (∀ d ∈ ds, d < 10) ∧ t = ds.map (fun d => UInt8.ofNat (48 + d)) ∧ n = ds.foldl (fun x d => x * 10 + d) m := by
  induction t generalizing m with
  | nil =>
    simp only [List.foldl_nil, Option.some.injEq] at h
    exact ⟨[], by simp, rfl, h.symm⟩
  | cons b t ih =>
    rw [List.foldl_cons] at h
    by_cases hb : 48 ≤ b.toNat ∧ b.toNat < 58
    · simp only [digitStep, Option.bind_some] at h
      rw [if_pos hb] at h
      obtain ⟨ds, h1, h2, h3⟩ := ih h
      refine ⟨(b.toNat - 48) :: ds, ?_, ?_, h3⟩
      · intro d hd
        rcases List.mem_cons.mp hd with rfl | hd
        · omega
        · exact h1 d hd
      · rw [List.map_cons, ← h2]
        congr 1
        rw [show 48 + (b.toNat - 48) = b.toNat by omega]
        exact UInt8.ofNat_toNat.symm
    · exfalso
      simp only [digitStep, Option.bind_some] at h
      rw [if_neg hb] at h
      have hn : ∀ l : Bytes, l.foldl digitStep none = none := by
        intro l
        induction l with
        | nil => rfl
        | cons x l ih => exact ih
      rw [hn] at h
      cases h

theorem foldl_digitStep_of (ds : List Nat) (hd : ∀ d ∈ ds, d < 10) (m : Nat) :
    (ds.map (fun d => UInt8.ofNat (48 + d))).foldl digitStep (some m) = some (ds.foldl (fun x d => x * 10 + d) m) := by
  induction ds generalizing m with
  | nil => rfl
  | cons d ds ih =>
    have h0 := hd d List.mem_cons_self
    have e : (UInt8.ofNat (48 + d)).toNat = 48 + d := toNat_ofNat (by omega)
    simp only [List.map_cons, List.foldl_cons, digitStep, Option.bind_some, e]
    rw [if_pos (by omega), Nat.add_sub_cancel_left]
    exact ih (fun x hx => hd x (List.mem_cons_of_mem _ hx)) _

theorem foldl_ofDigits (ds : List Nat) : ds.foldl (fun x d => x * 10 + d) 0 = Nat.ofDigits 10 ds.reverse := by
  induction ds using List.reverseRecOn with
  | nil => rfl
  | append_singleton ds d ih =>
    rw [List.foldl_append, ih, List.reverse_append]
    simp only [List.foldl_cons, List.foldl_nil, List.reverse_cons, List.reverse_nil, List.nil_append, List.singleton_append,
      Nat.ofDigits_cons]
    ring

/-- C98: A text is read as a public amount exactly if it is a nonempty sequence of decimal digits, perhaps after a plus sign, whose value is
the amount.  In particular a value of 2^64 or more is refused, never reduced. -/
theorem C98_amount_text (s : Bytes) (a : UInt64) :
    parseU64 s = some a ↔ ∃ ds : List Nat, ds ≠ [] ∧ (∀ d ∈ ds, d < 10) ∧ Nat.ofDigits 10 ds.reverse = a.toNat ∧
      (s = ds.map (fun d => UInt8.ofNat (48 + d)) ∨ s = 43 :: ds.map (fun d => UInt8.ofNat (48 + d))) := by
  constructor
  · intro h
    obtain ⟨t, ht, hs⟩ : ∃ t, t = (if s.head? = some 43 then s.tail else s) ∧ (s = t ∨ s = 43 :: t) := by
      refine ⟨_, rfl, ?_⟩
      split_ifs with h43
      · cases s with
        | nil => cases h43
        | cons b s =>
          simp only [List.head?_cons, Option.some.injEq] at h43
          exact .inr (by rw [h43]; rfl)
      · exact .inl rfl
    unfold parseU64 at h
    simp only [← ht] at h
    split_ifs at h with h0
    obtain ⟨n, h1, h2⟩ := Option.bind_eq_some_iff.mp h
    split_ifs at h2 with hn
    obtain ⟨ds, d1, d2, d3⟩ := foldl_digitStep h1
    refine ⟨ds, ?_, d1, ?_, d2 ▸ hs⟩
    · rintro rfl
      exact h0 d2
    · rw [← foldl_ofDigits, ← d3, ← Option.some.inj h2]
      exact (UInt64.toNat_ofNat_of_lt' hn).symm
  · rintro ⟨ds, h0, hd, hv, hs⟩
    have hne : ds.map (fun d => UInt8.ofNat (48 + d)) ≠ [] := by simpa using h0
    have ht : (if s.head? = some 43 then s.tail else s) = ds.map (fun d => UInt8.ofNat (48 + d)) := by
      rcases hs with rfl | rfl
      · rw [if_neg]
        cases ds with
        | nil => exact absurd rfl h0
        | cons d ds =>
          have h1 := hd d List.mem_cons_self
          simp only [List.map_cons, List.head?_cons, Option.some.injEq]
          intro h
          have := congrArg UInt8.toNat h
          rw [toNat_ofNat (by omega)] at this
          have h43 : (43 : UInt8).toNat = 43 := rfl
          omega
      · rfl
    have hlt := a.toNat_lt
    unfold parseU64
    simp only [ht]
    rw [if_neg hne, foldl_digitStep_of ds hd, foldl_ofDigits, hv, Option.bind_some, if_pos hlt]
    exact congrArg some (UInt64.ofNat_toNat)

/-- 2^64 is refused, the number below is read, with zeros and a sign as well -/
example : parseU64 (decimal (2 ^ 64)) = none ∧ parseU64 (decimal (2 ^ 64 - 1)) = some (UInt64.ofNat (2 ^ 64 - 1)) ∧
    parseU64 [43, 48, 48, 55] = some 7 ∧ parseU64 [45, 55] = none ∧ parseU64 [43] = none := by
  refine ⟨?_, ?_, by decide, by decide, by decide⟩
  · simp [decimal, parseU64, digitStep]
  · simp [decimal, parseU64, digitStep]

end Verif.Serde
