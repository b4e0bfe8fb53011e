import Verif.Bulletproofs.MixComplete
import Verif.Plonk.Ecc

/-!
C26 and C27: what the mixing circuit of crypto/src/bulletproofs/mix.rs proves, and that honest provers succeed.

`vals N` is the list of committed pairs (amount, type) for integer amounts, `total t N` the integer total of the amounts of
type `t` in `N` (both defined in MixSound.lean).
-/

namespace Verif.R1cs

open Verif.Plonk (ScalarRepr)

section
variable {F : Type} [Field F] [DecidableEq F] [ScalarRepr F]

/-! ### C26 -/

/-- C26 (soundness), proved for at least two outputs and no more outputs than inputs.  Let the inputs commit to 64-bit amounts.
Whatever outputs are committed to and whatever values `s` a dishonest prover assigns to the allocated variables: either the
outputs are 64-bit amounts that create no value of any type, and with equally many inputs and outputs the totals per type are
equal; or there is one closure whose constraint is met for at most `(n² + n)·|F|²` of the `|F|³` values of its challenges, so
that the constraints hold with probability at most `(n² + n)/|F|` over these challenges.  Missing for the full claim: it is
false for one input, for one output, and for more outputs than inputs, see `C26_single_input_unchecked`,
`C26_single_output_unchecked` and `C26_fewer_inputs_inflate`; and with more inputs than outputs value can disappear, see
`C26_more_inputs_burn`. -/
theorem C26_mix_sound_partial [Fintype F] (N : List (Nat × F)) (outs : List (F × F)) (hN : ∀ p ∈ N, p.1 < 2 ^ 64)
    (hm : 2 ≤ outs.length) (hnm : outs.length ≤ N.length) (ho : N.length * 2 ^ 64 ≤ ScalarRepr.order F)
    (s : List F) (g : Nat) (st : St F) (hrun : mix (vals N) none outs none (verifierWith s) = .ok (g, st)) :
    (∃ N', outs = vals N' ∧ (∀ p ∈ N', p.1 < 2 ^ 64) ∧
      ∀ t, total t N' ≤ total t N ∧ (outs.length = N.length → total t N' = total t N)) ∨
    ∃ (i : Nat) (bad : Finset (Chal F)), bad.card ≤ (N.length ^ 2 + N.length) * Fintype.card F ^ 2 ∧
      ∀ ch, Satisfied st ch → ch i ∈ bad := by
  obtain ⟨A, B, hA, hB, h⟩ := soundR_mix N outs _ hN hm hnm (Nat.le_refl _) ho _ _ _ hrun
  simp only [verifierWith, List.nil_append] at hA hB
  by_cases h1 : ∀ c ∈ A, c = 0
  · by_cases h2 : ∀ f ∈ B, ¬ Few (N.length ^ 2 + N.length) f
    · exact Or.inl (h h1 h2)
    · right
      push Not at h2
      obtain ⟨f, hf, bad, hbad, hh⟩ := h2
      obtain ⟨i, hi, rfl⟩ := List.getElem_of_mem hf
      exact ⟨i, bad, hbad, fun ch hs => hh _ (hs.2 i _ (by rw [hB]; exact List.getElem?_eq_getElem hi))⟩
  · right
    exact ⟨0, ∅, by simp, fun ch hs => absurd (by rw [← hA]; exact hs.1) h1⟩

omit [ScalarRepr F] in
/-- merging nothing is always possible -/
theorem chain_keep (x : MixVar F) (rest : List (MixVar F)) (last : MixVar F) :
    Chain (x :: rest) (rest ++ [last]) (x :: rest) (rest ++ [last]) := by
  induction rest generalizing x with
  | nil => exact Chain.cons (GateOk.keep _ _) Chain.nil
  | cons y rest ih => exact Chain.cons (GateOk.keep _ _) (ih y)

omit [ScalarRepr F] in
/-- a prover who does not merge -/
theorem complete_keep (l : List (MixVar F)) (h2 : 2 ≤ l.length) :
    ∃ mp : M F (Nat × List (MixVar F)), Complete mp (sortAndMerge l none) (fun r => r.2 = l) := by
  match l, h2 with
  | x :: y :: l, _ =>
    have hne : (y :: l) ≠ [] := by simp
    have e : (y :: l) = (y :: l).dropLast ++ [(y :: l).getLast hne] := (List.dropLast_append_getLast hne).symm
    have hc := chain_keep x (y :: l).dropLast ((y :: l).getLast hne)
    rw [← e] at hc
    exact ⟨_, complete_sortAndMergeVars (first := x) (rest := y :: l) (inter := (y :: l).dropLast)
      (merged := x :: y :: l) (last := (y :: l).getLast hne) (List.Perm.refl _) hne
      (by rw [List.getLast?_cons_cons, List.getLast?_eq_getLast_of_ne_nil hne])
      (by rw [List.dropLast_cons₂, ← e]; exact hc)⟩

omit [ScalarRepr F] in
/-- a prover who replaces the only entry by another one -/
theorem complete_replace (v w : MixVar F) :
    ∃ mp : M F (Nat × List (MixVar F)), Complete mp (sortAndMerge [v] none) (fun r => r.2 = [w]) :=
  ⟨_, Complete.bind (complete_vector [w] 1 rfl) fun l hl => Complete.ret (a := (0, l)) (by simp [hl])⟩

/-- from provers for the two merges, and a padding that makes the merged lists agree, to a satisfying assignment -/
theorem cheat {ins : List (F × F)} {N' : List (Nat × F)} {mi mo e : List (MixVar F)}
    (hi : ∃ mp : M F (Nat × List (MixVar F)), Complete mp (sortAndMerge ins none) (fun r => r.2 = mi))
    (ho : ∃ mp : M F (Nat × List (MixVar F)), Complete mp (sortAndMerge (vals N') none) (fun r => r.2 = mo))
    (hin : ins ≠ []) (hout : N' ≠ []) (hli : mi.length = ins.length) (hlo : mo.length = N'.length)
    (hpad : (ins.length < N'.length ∧ e.length = N'.length - ins.length ∧ (mi ++ e).Perm mo) ∨
      (N'.length ≤ ins.length ∧ e.length = ins.length - N'.length ∧ mi.Perm (mo ++ e)))
    (hN : ∀ p ∈ N', p.1 < 2 ^ 64) (hO : ∀ p ∈ N', p.1 < ScalarRepr.order F) :
    ∃ s g st, mix ins none (vals N') none (verifierWith s) = .ok (g, st) ∧ ∀ ch, Satisfied st ch := by
  obtain ⟨mp1, h1⟩ := hi
  obtain ⟨mp2, h2⟩ := ho
  have hl : (vals N').length = N'.length := by simp [vals]
  have hpos : 0 < N'.length := List.length_pos_iff.2 hout
  have hpos' : 0 < ins.length := List.length_pos_iff.2 hin
  suffices H : ∃ mp : M F Nat, Complete mp (mix ins none (vals N') none) (fun _ => True) by
    obtain ⟨mp, H⟩ := H
    obtain ⟨g, stp, stv, -, h, -, -, hs⟩ := H.satisfied
    exact ⟨_, g, stv, h, fun ch => (hs ch).2⟩
  unfold mix
  rw [if_neg (by rw [not_not]; left; omega), if_neg (by omega)]
  have hpadC : ∃ mp : List (MixVar F) × List (MixVar F) → List (MixVar F) → M F (List (MixVar F) × List (MixVar F)),
      ∀ x y, x = mi → y = mo → Complete (mp (x, y) []) (padShorter ins.length (vals N').length x y) (fun r => r.1.Perm r.2) := by
    rw [hl]
    rcases hpad with ⟨a, b, c⟩ | ⟨a, b, c⟩
    · refine ⟨fun xy _ => do
        let l ← forM' e (fun acc v => do
          let v ← allocatePair (some v)
          pure (acc ++ [v])) xy.1
        pure (l, xy.2), fun x y hx hy => ?_⟩
      unfold padShorter
      rw [if_pos a, hx, hy]
      exact Complete.bind (complete_padWith _ _ e (by rw [hli]; exact b)) fun l hl => Complete.ret (by rw [hl]; exact c)
    · refine ⟨fun xy _ => do
        let l ← forM' e (fun acc v => do
          let v ← allocatePair (some v)
          pure (acc ++ [v])) xy.2
        pure (xy.1, l), fun x y hx hy => ?_⟩
      unfold padShorter
      rw [if_neg (by omega), hx, hy]
      exact Complete.bind (complete_padWith _ _ e (by rw [hlo]; exact b)) fun l hl => Complete.ret (by rw [hl]; exact c)
  obtain ⟨mp3, h3⟩ := hpadC
  refine ⟨mp1 >>= fun n => mp2 >>= fun m => mp3 (n.2, m.2) [] >>= fun r => mixShuffle r.1 r.2 >>= fun g =>
    mixRanges (vals N') (some (vals N')) (n.1 + m.1 + g), ?_⟩
  exact Complete.bind h1 fun n hn => Complete.bind h2 fun m hm => Complete.bind (h3 _ _ hn hm) fun r hr =>
    Complete.bind (complete_mixShuffle hr) fun g _ => complete_mixRanges N' hN hO _

/-- With a single input the circuit says nothing about it: for every input and every non-empty list of 64-bit outputs some
assignment meets the verifier's constraints at all challenges (mix.rs:276-280 allocates fresh variables). -/
theorem C26_single_input_unchecked (input : F × F) (N' : List (Nat × F)) (hne : N' ≠ [])
    (hN : ∀ p ∈ N', p.1 < 2 ^ 64) (hO : ∀ p ∈ N', p.1 < ScalarRepr.order F) :
    ∃ s g st, mix [input] none (vals N') none (verifierWith s) = .ok (g, st) ∧ ∀ ch, Satisfied st ch := by
  match N', hne with
  | [p], _ =>
    exact cheat (mi := [((p.1 : F), p.2)]) (mo := [((p.1 : F), p.2)]) (e := []) (complete_replace _ _) (complete_replace _ _)
      (by simp) (by simp) rfl rfl (Or.inr ⟨by simp, by simp, by simp⟩) hN hO
  | p :: q :: N', _ =>
    exact cheat (mi := [((p.1 : F), p.2)]) (mo := vals (p :: q :: N')) (e := vals (q :: N')) (complete_replace _ _)
      (complete_keep _ (by simp [vals])) (by simp) (by simp) rfl (by simp [vals])
      (Or.inl ⟨by simp, by simp [vals], by simp [vals]⟩) hN hO

/-- With a single output the circuit says nothing about the inputs: any non-empty list of inputs goes with any 64-bit
output. -/
theorem C26_single_output_unchecked (ins : List (F × F)) (hne : ins ≠ []) (p : Nat × F) (hp : p.1 < 2 ^ 64)
    (hO : p.1 < ScalarRepr.order F) :
    ∃ s g st, mix ins none (vals [p]) none (verifierWith s) = .ok (g, st) ∧ ∀ ch, Satisfied st ch := by
  match ins, hne with
  | [v], _ => exact C26_single_input_unchecked v [p] (by simp) (by simpa using hp) (by simpa using hO)
  | v :: w :: ins, _ =>
    exact cheat (mi := v :: w :: ins) (mo := [v]) (e := w :: ins) (complete_keep _ (by simp)) (complete_replace _ _)
      (by simp) (by simp) rfl rfl (Or.inr ⟨by simp, by simp, by simp⟩) (by simpa using hp) (by simpa using hO)

/-- With fewer inputs than outputs value can be created: to any inputs any 64-bit outputs can be added (the padding of
mix.rs:155-160 is unconstrained). -/
theorem C26_fewer_inputs_inflate (N E : List (Nat × F)) (hne : N ≠ []) (hE : E ≠ [])
    (hN : ∀ p ∈ N ++ E, p.1 < 2 ^ 64) (hO : ∀ p ∈ N ++ E, p.1 < ScalarRepr.order F) :
    ∃ s g st, mix (vals N) none (vals (N ++ E)) none (verifierWith s) = .ok (g, st) ∧ ∀ ch, Satisfied st ch := by
  match N, hne with
  | [p], _ => exact C26_single_input_unchecked _ _ (by simp) hN hO
  | p :: q :: N, _ =>
    have hE' := List.length_pos_iff.2 hE
    refine cheat (mi := vals (p :: q :: N)) (mo := vals (p :: q :: N ++ E)) (e := vals E)
      (complete_keep _ (by simp [vals])) (complete_keep _ (by simp [vals])) (by simp [vals]) (by simp) rfl (by simp [vals])
      (Or.inl ⟨?_, ?_, ?_⟩) hN hO
    · simp only [vals, List.length_map, List.length_append]; omega
    · simp only [vals, List.length_map, List.length_append]; omega
    · simp [vals]

/-- With more inputs than outputs value can disappear. -/
theorem C26_more_inputs_burn (N E : List (Nat × F)) (h2 : 2 ≤ N.length)
    (hN : ∀ p ∈ N, p.1 < 2 ^ 64) (hO : ∀ p ∈ N, p.1 < ScalarRepr.order F) :
    ∃ s g st, mix (vals (N ++ E)) none (vals N) none (verifierWith s) = .ok (g, st) ∧ ∀ ch, Satisfied st ch := by
  refine cheat (mi := vals (N ++ E)) (mo := vals N) (e := vals E)
    (complete_keep _ (by simp only [vals, List.length_map, List.length_append]; omega))
    (complete_keep _ (by simpa only [vals, List.length_map] using h2)) ?_ ?_ rfl (by simp [vals])
    (Or.inr ⟨?_, ?_, ?_⟩) hN hO
  · intro h
    have := congrArg List.length h
    simp only [vals, List.length_map, List.length_append, List.length_nil] at this
    omega
  · rintro rfl; simp at h2
  · simp [vals]
  · simp [vals]
  · simp [vals]

/-! ### C27 -/

/-- models the part of `prove_asset_mixing`, api/src/xfr/asset_mixer.rs:51-121, up to the external prover: the sets of types
must agree, then `mix` runs on the committed values.  Commitments and blinds are left out: a committed variable is its value. -/
def proveAssetMixing (ins outs : List (F × F)) : M F Nat :=
  if (ins.map Prod.snd).toFinset ≠ (outs.map Prod.snd).toFinset then fail
  else mix ins (some ins) outs (some outs)

omit [ScalarRepr F] in
theorem ftotal_vals (t : F) (N : List (Nat × F)) : ftotal t (vals N) = ((total t N : Nat) : F) := by
  induction N with
  | nil => simp [vals, ftotal, total]
  | cons p N ih =>
    have e : vals (p :: N) = ((p.1 : F), p.2) :: vals N := rfl
    rw [e, ftotal_cons, ih]
    unfold total
    by_cases h : p.2 = t <;> simp [h]

omit [ScalarRepr F] in
theorem summary_length_le (l : List (MixVar F)) : (summary l).length ≤ l.length := by
  rw [summary, List.length_map]
  exact (List.dedup_sublist _).length_le.trans (by simp)

/-- C27: let inputs and outputs be non-empty lists of integer amounts with the same set of types and the same total for every
type, the outputs being 64-bit amounts.  Then the prover's run succeeds, and with the values it assigns all constraints of the
verifier hold at all challenges. -/
theorem C27_mix_complete (N N' : List (Nat × F)) (hN : N ≠ []) (hN' : N' ≠ [])
    (htypes : ∀ t, t ∈ N.map Prod.snd ↔ t ∈ N'.map Prod.snd) (htotal : ∀ t, total t N = total t N')
    (hrange : ∀ p ∈ N', p.1 < 2 ^ 64) (ho : 2 ^ 64 ≤ ScalarRepr.order F) :
    ∃ g stp stv, proveAssetMixing (vals N) (vals N') proverStart = .ok (g, stp) ∧
      mix (vals N) none (vals N') none (verifierWith stp.allocs) = .ok (g, stv) ∧ stv.stream = some [] ∧
      ∀ ch, Satisfied stp ch ∧ Satisfied stv ch := by
  have hl : ∀ M : List (Nat × F), (vals M).length = M.length := fun M => by simp [vals]
  have hpos := List.length_pos_iff.2 hN
  have hpos' := List.length_pos_iff.2 hN'
  have hmap : ∀ M : List (Nat × F), (vals M).map Prod.snd = M.map Prod.snd := fun M => by simp [vals]
  have hset : ((vals N).map Prod.snd).toFinset = ((vals N').map Prod.snd).toFinset := by
    ext t
    rw [List.mem_toFinset, List.mem_toFinset, hmap, hmap]
    exact htypes t
  have hsum : (summary (vals N)).Perm (summary (vals N')) := by
    unfold summary
    have hd : ((vals N).map Prod.snd).dedup.Perm ((vals N').map Prod.snd).dedup := by
      rw [List.perm_ext_iff_of_nodup (List.nodup_dedup _) (List.nodup_dedup _)]
      intro t
      rw [List.mem_dedup, List.mem_dedup, hmap, hmap]
      exact htypes t
    refine (hd.map _).trans (List.Perm.of_eq (List.map_congr_left fun t _ => ?_))
    rw [ftotal_vals, ftotal_vals, htotal]
  have hsl := hsum.length_eq
  have hle1 := summary_length_le (vals N)
  have hle2 := summary_length_le (vals N')
  rw [hl] at hle1 hle2
  suffices H : Complete (mix (vals N) (some (vals N)) (vals N') (some (vals N'))) (mix (vals N) none (vals N') none)
      (fun _ => True) by
    obtain ⟨g, stp, stv, h1, h2, -, h3, hs⟩ := H.satisfied
    refine ⟨g, stp, stv, ?_, h2, h3, hs⟩
    unfold proveAssetMixing
    rw [if_neg (by rw [not_not]; exact hset)]
    exact h1
  have hc1 : ¬ ¬ ((0 < (vals N).length ∧ 0 < (vals N').length) ∨ (vals N').length = (vals N).length) := by
    rw [not_not, hl, hl]; left; omega
  have hc2 : ¬ (vals N').length = 0 := by rw [hl]; omega
  unfold mix
  rw [if_neg hc1, if_neg hc1, if_neg hc2, if_neg hc2]
  have hS : ∀ M : List (Nat × F), M ≠ [] → Complete (sortAndMerge (vals M) (some (vals M))) (sortAndMerge (vals M) none)
      (fun r => r.2.Perm (List.replicate (M.length - (summary (vals M)).length) (0, 0) ++ summary (vals M))) := by
    intro M hM
    rw [← hl M]
    match M, hM with
    | p :: M, _ => exact complete_sortAndMerge _ _
  refine Complete.bind (hS N hN) fun n hn => Complete.bind (hS N' hN') fun m hm => ?_
  have hnl := hn.length_eq
  have hml := hm.length_eq
  simp only [List.length_append, List.length_replicate] at hnl hml
  have hzero : ∀ (a k : Nat) (S x : List (MixVar F)), x.Perm (List.replicate a (0, 0) ++ S) →
      (x ++ List.replicate k (0, 0)).Perm (List.replicate (a + k) (0, 0) ++ S) := by
    intro a k S x hx
    refine (hx.append_right _).trans ?_
    rw [List.append_assoc]
    refine (List.perm_append_comm.append_left _).trans ?_
    rw [← List.append_assoc, ← List.replicate_add]
  refine Complete.bind (P := fun (r : List (MixVar F) × List (MixVar F)) => r.1.Perm r.2) ?_ fun r hr =>
    Complete.bind (complete_mixShuffle hr) fun g _ => complete_mixRanges N' hrange
      (fun p hp => lt_of_lt_of_le (hrange p hp) ho) _
  unfold padShorter
  rw [hl, hl]
  by_cases hlt : N.length < N'.length
  · rw [if_pos hlt]
    refine Complete.bind (complete_pad _ _) fun l hl' => Complete.ret ?_
    rw [hl']
    refine (hzero _ _ _ _ hn).trans (List.Perm.trans ?_ hm.symm)
    rw [show N.length - (summary (vals N)).length + (N'.length - n.2.length) =
      N'.length - (summary (vals N')).length by omega]
    exact hsum.append_left _
  · rw [if_neg hlt]
    refine Complete.bind (complete_pad _ _) fun l hl' => Complete.ret ?_
    rw [hl']
    refine hn.trans (List.Perm.trans ?_ (hzero _ _ _ _ hm).symm)
    rw [show N'.length - (summary (vals N')).length + (N.length - m.2.length) =
      N.length - (summary (vals N)).length by omega]
    exact hsum.append_left _

/-- C27 (rejected by the prover): different sets of types give an error, not a proof. -/
theorem C27_types_differ_error (ins outs : List (F × F)) (st : St F)
    (h : ∃ t, ¬ (t ∈ ins.map Prod.snd ↔ t ∈ outs.map Prod.snd)) : proveAssetMixing ins outs st = .err := by
  unfold proveAssetMixing
  rw [if_pos]
  · rfl
  · intro he
    obtain ⟨t, ht⟩ := h
    exact ht (by rw [← List.mem_toFinset, he, List.mem_toFinset])

/-- C27 (both sides empty): nothing is constrained; one side empty: `mix` panics (mix.rs:143-145). -/
theorem C27_empty (ins outs : List (F × F)) (v w : Option (List (F × F))) (st : St F) :
    mix [] none [] none st = .ok (0, st) ∧ (ins ≠ [] → mix ins v [] w st = .panic) ∧ (outs ≠ [] → mix [] v outs w st = .panic) := by
  refine ⟨rfl, fun h => ?_, fun h => ?_⟩
  · have := List.length_pos_iff.2 h
    unfold mix
    rw [if_pos (by simp only [List.length_nil]; omega)]
    rfl
  · have := List.length_pos_iff.2 h
    unfold mix
    rw [if_pos (by simp only [List.length_nil]; omega)]
    rfl

end

/-! ### the hypotheses are met -/

section
open Verif

/-- a balanced transfer of two types, three inputs and two outputs -/
example : ∃ g stp stv, proveAssetMixing (F := ZMod Bls.r) (vals [(3, 1), (10, 2), (4, 1)]) (vals [(10, 2), (7, 1)]) proverStart =
      .ok (g, stp) ∧
    mix (F := ZMod Bls.r) (vals [(3, 1), (10, 2), (4, 1)]) none (vals [(10, 2), (7, 1)]) none (verifierWith stp.allocs) =
      .ok (g, stv) ∧ stv.stream = some [] ∧ ∀ ch, Satisfied stp ch ∧ Satisfied stv ch := by
  refine C27_mix_complete _ _ (by simp) (by simp) (fun t => ?_) (fun t => ?_) (by simp) ?_
  · simp only [List.map_cons, List.map_nil, List.mem_cons, List.not_mem_nil, or_false]
    tauto
  · unfold total
    by_cases h1 : (1 : ZMod Bls.r) = t
    · subst h1
      have : ¬ (2 : ZMod Bls.r) = 1 := by decide +kernel
      simp [this]
    · by_cases h2 : (2 : ZMod Bls.r) = t
      · simp [h1, h2]
      · simp [h1, h2]
  · show 2 ^ 64 ≤ Bls.r
    decide +kernel

/-- and its verification run is one `C26_mix_sound_partial` speaks about: the second alternative is impossible there, so the
first one holds of it -/
example : ∃ (s : List (ZMod Bls.r)) (g : Nat) (st : St (ZMod Bls.r)),
    mix (vals [(3, 1), (10, 2), (4, 1)]) none (vals [(3, 1), (10, 2)]) none (verifierWith s) = .ok (g, st) ∧
    ∀ ch, Satisfied st ch :=
  C26_more_inputs_burn (F := ZMod Bls.r) [(3, 1), (10, 2)] [(4, 1)] (by simp) (by simp)
    (by intro p hp; refine lt_trans (?_ : p.1 < 2 ^ 64) (show 2 ^ 64 < Bls.r by decide +kernel)
        simp only [List.mem_cons, List.not_mem_nil, or_false] at hp
        rcases hp with rfl | rfl <;> norm_num)

/-- one unit of type 1 in, a billion units of type 7 out -/
example : ∃ (s : List (ZMod Bls.r)) (g : Nat) (st : St (ZMod Bls.r)),
    mix [(1, 1)] none (vals [(1000000000, 7), (5, 1)]) none (verifierWith s) = .ok (g, st) ∧ ∀ ch, Satisfied st ch :=
  C26_single_input_unchecked (F := ZMod Bls.r) _ _ (by simp) (by simp)
    (by intro p hp; refine lt_trans (?_ : p.1 < 2 ^ 64) (show 2 ^ 64 < Bls.r by decide +kernel)
        simp only [List.mem_cons, List.not_mem_nil, or_false] at hp
        rcases hp with rfl | rfl <;> norm_num)

end
end Verif.R1cs
