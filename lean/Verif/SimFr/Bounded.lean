import Verif.SimFr.Uniform

/-!
C61 for `alloc_witness_bounded_total_bits`.
-/

namespace Verif.SimFr

open Verif.Plonk Verif.Plonk.Spec Finset Spec

variable {F : Type} [Field F]

/-- number of bits of limb `i` of a witness with `total` bits -/
def bcap (P : Params) (total i : Nat) : Nat := min (total - i * P.bits) P.bits

theorem bcap_le (P : Params) (total i : Nat) (hi : i < P.limbs) (ht : total ≤ P.bits * (P.limbs - 1) + P.top) :
    bcap P total i ≤ P.cap i := by
  unfold bcap Params.cap
  split
  · rename_i h
    rw [h, Nat.mul_comm]
    omega
  · omega

theorem value_lt_bcap (b n total : Nat) (L : Nat → Nat) (h : ∀ i < n, L i < 2 ^ min (total - i * b) b) :
    value b n L < 2 ^ total := by
  induction n generalizing L total with
  | zero => simp [value]
  | succ n ih =>
    rw [value_succ]
    have h0 := h 0 (by omega)
    rw [Nat.zero_mul, Nat.sub_zero] at h0
    have h1 := ih (total - b) (fun i => L (i + 1)) (fun i hi => by
      have := h (i + 1) (by omega)
      rwa [show total - (i + 1) * b = total - b - i * b by rw [Nat.add_mul]; omega] at this)
    by_cases hb : b ≤ total
    · rw [Nat.min_eq_right hb] at h0
      have e : 2 ^ total = 2 ^ b * 2 ^ (total - b) := by rw [← pow_add]; congr 1; omega
      rw [e]
      have : 2 ^ b * (value b n (fun i => L (i + 1)) + 1) ≤ 2 ^ b * 2 ^ (total - b) := Nat.mul_le_mul_left _ h1
      rw [Nat.mul_add] at this
      omega
    · rw [Nat.min_eq_left (by omega)] at h0
      rw [show total - b = 0 by omega] at h1
      have h2 : value b n (fun i => L (i + 1)) = 0 := by omega
      rw [h2]
      omega

/-- the variables of the bits, by position -/
theorem bits_index_b {α : Type} (b n total : Nat) (hb : 0 < b) (l : List (α × List Nat)) (hl : l.length = n)
    (ht : total ≤ b * n) (hf : ∀ i p, l[i]? = some p → p.2.length = min (total - i * b) b) (t : Nat) (htt : t < total) :
    ∃ i j p, i < n ∧ j < min (total - i * b) b ∧ t = b * i + j ∧ l[i]? = some p ∧
      (l.flatMap Prod.snd)[t]? = p.2[j]? := by
  have hd := Nat.div_add_mod t b
  have hmod := Nat.mod_lt t hb
  have hi : t / b < n := by
    rw [Nat.div_lt_iff_lt_mul hb, Nat.mul_comm]; omega
  have hj : t % b < min (total - t / b * b) b := by
    rw [Nat.mul_comm (t / b)]
    omega
  have hp := List.getElem?_eq_getElem (show t / b < l.length by omega)
  refine ⟨t / b, t % b, _, hi, hj, hd.symm, hp, ?_⟩
  conv_lhs => rw [← hd]
  refine flatMap_bits b l _ _ hp (fun j q hj' hq => ?_) _ (by rw [hf _ _ hp]; exact hj)
  rw [hf j q hq]
  have : (j + 1) * b ≤ t / b * b := Nat.mul_le_mul_right _ hj'
  rw [Nat.mul_comm (t / b), Nat.add_mul] at this
  omega

variable [ScalarRepr F]

/-- C61: a witness with a bounded number of bits is a number with at most that number of bits, provided that
`zero_var`, which stands for the remaining limbs, is zero; the returned variables are its bits. -/
theorem C61_alloc_bounded_sound (P : Params) (hP : P.Ok) (val : Sim F) (total : Nat)
    (ht : total ≤ P.bits * (P.limbs - 1) + P.top) :
    Sound (allocBounded P val total) (fun w r => r.1.val.adds = (if total = 253 then .one else .strict) ∧
      (w 0 = 0 → ∃ N, r.1.Is P w N ∧ N < 2 ^ total ∧ ∀ i, i < total → ∃ v, r.2[i]? = some v ∧ w v = bit N i)) := by
  unfold allocBounded
  refine Sound.ite (fun hs => ?_) (fun _ => Sound.failure _)
  refine Sound.bind (Sound.mapM _ (fun w i (p : Nat × List Nat) => p.2.length = bcap P total i ∧ (w 0 = 0 →
    ∃ N : Nat, N < 2 ^ bcap P total i ∧ w p.1 = (N : F) ∧ ∀ j v, p.2[j]? = some v → w v = bit N j)) _ ?_)
    (fun l => Sound.pure _ _ ?_)
  · intro i _
    refine Sound.ite (fun h => ?_) (fun h => ?_)
    · refine Sound.bind (Sound.liftM _) (fun x => Sound.bind (sound_newVar _) (fun v => ?_))
      refine Sound.bind (C46_range_check_sound v _) (fun b => Sound.pure _ _ ?_)
      rintro w ⟨h1, N, h2, h3, h4⟩ _ _
      exact ⟨h1, fun _ => ⟨N, h2, h3, h4⟩⟩
    · refine Sound.pure _ _ (fun w => ?_)
      have hz : bcap P total i = 0 := by unfold bcap; omega
      refine ⟨by simp [hz], fun h0 => ⟨0, by rw [hz]; norm_num, by simpa [zeroVar] using h0, ?_⟩⟩
      intro j v hv
      simp at hv
  · intro w hf
    obtain ⟨hl, hf⟩ := forall₂_range hf
    constructor
    · simp only
      split
      · rfl
      · exact hs
    intro h0
    have hpos := hP.pos
    have htop := hP.top
    obtain ⟨L, hL⟩ := choose_range (fun i p hp => (hf i p hp).2 h0)
    have hL2 : ∀ i < P.limbs, L i < 2 ^ bcap P total i := fun i hi =>
      (hL i _ (List.getElem?_eq_getElem (by omega))).1
    refine ⟨value P.bits P.limbs L, ⟨L, ⟨by simpa using hl, ?_⟩, rfl, ?_⟩, value_lt_bcap _ _ _ _ hL2, ?_⟩
    · intro i v hv
      simp only at hv
      rw [List.getElem?_map, Option.map_eq_some_iff] at hv
      obtain ⟨p, hp, rfl⟩ := hv
      exact (hL i p hp).2.1
    · intro i hi
      refine lt_of_lt_of_le (hL2 i hi) ((Nat.pow_le_pow_right (by norm_num) (bcap_le P total i hi ht)).trans ?_)
      omega
    · intro t htt
      have hb0 : 0 < P.bits := by omega
      have htl : total ≤ P.bits * P.limbs := by
        obtain ⟨m, hm⟩ : ∃ m, P.limbs = m + 1 := ⟨P.limbs - 1, by omega⟩
        rw [hm, Nat.add_sub_cancel] at ht
        rw [hm, Nat.mul_succ]
        omega
      obtain ⟨i, j, p, hi, hj, e, hp, e2⟩ := bits_index_b P.bits P.limbs total hb0 l hl htl
        (fun i p hp => (hf i p hp).1) t htt
      obtain ⟨v, hv⟩ := get_lt (show j < p.2.length by rw [(hf i p hp).1]; exact hj)
      refine ⟨v, by simp only; rw [e2, hv], ?_⟩
      rw [(hL i p hp).2.2 j v hv, e]
      unfold bit
      rw [testBit_value _ _ _ (fun i hi => lt_of_lt_of_le (hL2 i hi) (Nat.pow_le_pow_right (by norm_num)
        (by unfold bcap; omega))) i j hi (by omega)]

/-- C61: the same, honestly; limbs of at least two bits are needed by the range check. -/
theorem C61_alloc_bounded_complete (P : Params) (hP : P.Ok) (hF : 2 ^ P.bits ≤ ScalarRepr.order F) (val : Sim F)
    (hv : val.Ok P) (hs : val.adds = .strict) (total : Nat) (ht : total ≤ P.bits * (P.limbs - 1) + P.top)
    (h1 : total % P.bits ≠ 1) (hlt : val.val < 2 ^ total) (cs : CS F) (h0 : Has cs 0 0) :
    Runs (allocBounded P val total) cs (fun r cs' => r.1.Held P cs' ∧ r.1.val.val = val.val ∧
      r.1.val.adds = (if total = 253 then .one else .strict) ∧
      ∀ i, i < total → ∃ v, r.2[i]? = some v ∧ Has cs' v (bit val.val i)) := by
  obtain ⟨L, l1, l2, l3, l4⟩ := hv
  have hpos := hP.pos
  have htop := hP.top
  have htop2 := hP.top2
  have hL : ∀ i < P.limbs, L i < 2 ^ P.cap i := by
    intro i hi
    have := l3 i hi
    rwa [hs, show Red.pads .strict = 0 from rfl, zero_mul, add_zero] at this
  have hLb : ∀ i < P.limbs, L i < 2 ^ P.bits := fun i hi =>
    lt_of_lt_of_le (hL i hi) (Nat.pow_le_pow_right (by norm_num) (hP.cap_le i))
  have hLc : ∀ i < P.limbs, L i < 2 ^ bcap P total i := by
    intro i hi
    unfold bcap
    by_cases hc : P.bits ≤ total - i * P.bits
    · rw [Nat.min_eq_right hc]; exact hLb i hi
    · rw [Nat.min_eq_left (by omega)]
      by_contra hge
      push Not at hge
      have : 2 ^ total ≤ val.val := by
        rw [← l2]
        calc 2 ^ total ≤ 2 ^ (total - i * P.bits) * 2 ^ (P.bits * i) := by
              rw [← pow_add]
              refine Nat.pow_le_pow_right (by norm_num) ?_
              rw [Nat.mul_comm i]; omega
          _ ≤ L i * 2 ^ (P.bits * i) := Nat.mul_le_mul_right _ hge
          _ ≤ _ := Finset.single_le_sum (f := fun i => L i * 2 ^ (P.bits * i)) (fun _ _ => Nat.zero_le _)
              (Finset.mem_range.mpr hi)
      omega
  refine Runs.withWF (fun hws => ?_)
  unfold allocBounded
  rw [if_pos hs]
  refine Runs.bind (Runs.mapM _ (fun cs i (p : Nat × List Nat) => Has cs p.1 (L i : F) ∧
    p.2.length = bcap P total i ∧ ∀ j, j < bcap P total i → ∃ v, p.2[j]? = some v ∧ Has cs v (bit (L i) j)) ?_ _ cs ?_) ?_
  · rintro _ _ _ _ hw mo ⟨g1, g2, g3⟩
    refine ⟨g1.mono hw mo, g2, fun j hj => ?_⟩
    obtain ⟨v, g4, g5⟩ := g3 j hj
    exact ⟨v, g4, g5.mono hw mo⟩
  · intro cs1 i hi mo1 hw1
    rw [List.mem_range] at hi
    by_cases hz : total - i * P.bits ≠ 0
    · rw [if_pos hz]
      refine Runs.bind (Runs.liftM _ _ (Sim.Ok.get l1 hi) _) ?_
      rintro _ _ _ _ _ ⟨rfl, rfl⟩
      refine Runs.bind (runs_newVar _ _) ?_
      intro v cs3 w2 w3 mo3 hv
      have hval : ScalarRepr.val ((L i : Nat) : F) = L i := ScalarRepr.val_cast _ (lt_of_lt_of_le (hLb i hi) hF)
      have h2 : 2 ≤ bcap P total i := by
        unfold bcap
        have hne : total - i * P.bits ≠ 1 := by
          intro h
          apply h1
          rw [show total = 1 + i * P.bits by omega, Nat.add_mul_mod_self_right]
          exact Nat.mod_eq_of_lt (by omega)
        omega
      refine Runs.bind (runs_rangeCheck v (bcap P total i) _ _ h2 ((h0.mono hws mo1).mono w2 mo3) hv
        (by rw [hval]; exact hLc i hi)) ?_
      intro b cs4 _ _ mo4 hb
      rw [hval] at hb
      exact Runs.pure _ _ _ ⟨hv.mono w3 mo4, hb.1, hb.2⟩
    · rw [if_neg hz]
      have hz' : bcap P total i = 0 := by unfold bcap; omega
      have hLz : L i = 0 := by have := hLc i hi; rw [hz'] at this; omega
      refine Runs.pure _ _ _ ⟨?_, by simp [hz'], ?_⟩
      · rw [hLz, Nat.cast_zero]
        exact h0.mono hws mo1
      · intro j hj; omega
  · intro l cs1 _ _ _ hf
    obtain ⟨hl, hf⟩ := forall₂_range hf
    have hva : ∀ (c : Prop) [Decidable c], (if c then { val with adds := .one } else val : Sim F).limbs = val.limbs ∧
        (if c then { val with adds := .one } else val : Sim F).val = val.val ∧
        (if c then { val with adds := .one } else val : Sim F).adds = (if c then .one else .strict) := by
      intro c _
      split
      · exact ⟨rfl, rfl, rfl⟩
      · exact ⟨rfl, rfl, hs⟩
    obtain ⟨v1, v2, v3⟩ := hva (total = 253)
    refine Runs.pure _ _ _ ⟨⟨⟨L, ?_, ?_, fun i hi => ?_, ?_⟩, ?_, ?_⟩, v2, v3, ?_⟩
    · simp only; rw [v1]; exact l1
    · simp only; rw [v2]; exact l2
    · have := hL i hi
      omega
    · simp only
      rw [v2, v3]
      rw [hs] at l4
      simp only [Red.num] at l4
      refine lt_of_lt_of_le l4 (Nat.mul_le_mul_right _ ?_)
      split <;> simp [Red.num]
    · simpa using hl
    · intro i v x hi hx
      simp only at hi hx
      rw [List.getElem?_map, Option.map_eq_some_iff] at hi
      obtain ⟨p, hp, rfl⟩ := hi
      have hlt := (List.getElem?_eq_some_iff.mp hp).1
      rw [v1, Sim.Ok.get l1 (by omega)] at hx
      rw [← Option.some.inj hx]
      exact (hf i p hp).1
    · intro t htt
      have hb0 : 0 < P.bits := by omega
      have htl : total ≤ P.bits * P.limbs := by
        obtain ⟨m, hm⟩ : ∃ m, P.limbs = m + 1 := ⟨P.limbs - 1, by omega⟩
        rw [hm, Nat.add_sub_cancel] at ht
        rw [hm, Nat.mul_succ]
        omega
      obtain ⟨i, j, p, hi, hj, e, hp, e2⟩ := bits_index_b P.bits P.limbs total hb0 l hl htl
        (fun i p hp => (hf i p hp).2.1) t htt
      obtain ⟨v, hv, hb⟩ := (hf i p hp).2.2 j hj
      refine ⟨v, by rw [← hv, ← e2], ?_⟩
      rw [← l2, e]
      unfold bit
      rw [testBit_value _ _ _ hLb i j hi (by omega)]
      exact hb

theorem uniform_allocBounded (P : Params) (val val' : Sim F) (h : val.Ok P) (h' : val'.Ok P)
    (hs : val.adds = .strict) (hs' : val'.adds = .strict) (total : Nat) :
    Uniform (fun r r' => SimVar.Same P r.1 r'.1 ∧ r.2 = r'.2) (allocBounded P val total) (allocBounded P val' total) := by
  unfold allocBounded
  rw [if_pos hs, if_pos hs']
  have key : ∀ v : Sim F, v.Ok P → v.adds = .strict → Sim.Ok P { v with adds := .one } := by
    rintro v ⟨L, h1, h2, h3, h4⟩ hs
    refine ⟨L, h1, h2, ?_, ?_⟩
    · intro i hi
      have := h3 i hi
      rw [hs] at this
      simpa [Red.pads] using this
    · rw [hs] at h4
      simp only [Red.num] at h4 ⊢
      omega
  refine Uniform.bind (Uniform.mapM _ _ _ ?_) (fun l _ e => ?_)
  · intro i hi
    rw [List.mem_range] at hi
    refine Uniform.ite (fun _ => ?_) (fun _ => Uniform.pure _ _ rfl)
    obtain ⟨x, hx⟩ := h.get' hi
    obtain ⟨x', hx'⟩ := h'.get' hi
    refine Uniform.bind (uniform_lift2 (ρ := fun _ _ => True) hx hx' trivial) (fun _ _ _ => ?_)
    refine Uniform.bind (uniform_newVar _ _) (fun v _ e => ?_); subst e
    refine Uniform.bind (uniform_rangeCheck _ _) (fun b _ e => ?_); subst e
    exact Uniform.pure _ _ rfl
  · subst e
    refine Uniform.pure _ _ ⟨⟨rfl, ?_, ?_, ?_⟩, rfl⟩
    · simp only; split
      · rfl
      · rw [hs, hs']
    · simp only; split
      · exact key _ h hs
      · exact h
    · simp only; split
      · exact key _ h' hs'
      · exact h'

end Verif.SimFr
