import Verif.Plonk.Adv

/-!
Property C51: the asset mixing circuit of anonymous transfers.

Model of `asset_mixing` and `match_select`, api/src/anon_xfr/abar_to_abar.rs:665-787, for an arbitrary field.
-/

namespace Verif.Anon

open Verif.Plonk Verif.Plonk.Spec

variable {F : Type} [Field F]

/-- models `match_select`, abar_to_abar.rs:778-787 -/
def matchSelect (t1 t2 v : Nat) : Build F Nat := do
  let e ← isEqual t1 t2
  mulV e v

/-- the fold of abar_to_abar.rs:690-698 (inputs) and 709-717 (outputs) for one record type `t` -/
def sumOf (l : List (Nat × Nat)) (t : Nat) : Build F Nat :=
  l.foldlM (fun s o => do
    let a ← matchSelect t o.1 o.2
    addV s a) zeroVar

/-- abar_to_abar.rs:686-701 and 704-719: for every record its type and the total amount of that type -/
def typeSums (l : List (Nat × Nat)) : Build F (List (Nat × Nat)) :=
  l.mapM (fun i => do
    let s ← sumOf l i.1
    pure (i.1, s))

/-- the body of the inner loop, abar_to_abar.rs:738-754; `fe` is the pair (is_fee_type, is_not_fee_type) -/
def mixPair (it is : Nat) (fe : Nat × Nat) (feeVar : Nat) (nm : Nat) (o : Nat × Nat) : Build F Nat := do
  let q ← isEqualOrNotEqual it o.1
  let nm ← mulV nm q.2
  let diff ← subV is o.2
  let a ← mulV q.1 fe.2
  insertMulGate a diff zeroVar
  let b ← mulV q.1 fe.1
  let d ← subV diff feeVar
  insertMulGate b d zeroVar
  pure nm

/-- the body of the outer loop, abar_to_abar.rs:728-764 -/
def mixInput (outs : List (Nat × Nat)) (feeTypeVar feeVar : Nat) (flag : Nat) (i : Nat × Nat) : Build F Nat := do
  let fe ← isEqualOrNotEqual i.1 feeTypeVar
  let flag ← mulV flag fe.2
  let nm ← outs.foldlM (mixPair i.1 i.2 fe feeVar) oneVar
  insertMulGate fe.2 nm zeroVar
  let imf ← subV i.2 feeVar
  let c ← mulV fe.1 nm
  insertMulGate c imf zeroVar
  pure flag

/-- the body of the last loop, abar_to_abar.rs:769-775 -/
def mixOutput (ins : List (Nat × Nat)) (o : Nat × Nat) : Build F Unit := do
  let p ← ins.foldlM (fun p i => do
    let d ← subV i.1 o.1
    mulV p d) oneVar
  insertConstantGate p 0

/-- models `asset_mixing`, abar_to_abar.rs:678-776; records are pairs (type variable, amount variable) -/
def assetMixing (ins outs : List (Nat × Nat)) (feeType : F) (feeVar : Nat) : Build F Unit := do
  let inS ← typeSums ins
  let outS ← typeSums outs
  let fv ← newVar (fun _ => feeType)
  insertConstantGate fv feeType
  let flag ← inS.foldlM (mixInput outS fv feeVar) oneVar
  insertConstantGate flag 0
  outs.foldlM (fun _ o => mixOutput ins o) ()

namespace Spec

/-- the records (type, amount) an assignment gives to a list of pairs of variables -/
def records (w : Nat → F) (l : List (Nat × Nat)) : List (F × F) := l.map (fun p => (w p.1, w p.2))

/-- total amount of the records of type `t`, in the field -/
def total [DecidableEq F] (l : List (F × F)) (t : F) : F := (l.map (fun p => if p.1 = t then p.2 else 0)).sum

/-- total amount of the records of type `t`, over the integers -/
def totalNat [DecidableEq F] [ScalarRepr F] (l : List (F × F)) (t : F) : Nat :=
  (l.map (fun p => if p.1 = t then ScalarRepr.val p.2 else 0)).sum

end Spec

open Spec

/-! ### Soundness -/

variable [DecidableEq F]

theorem sound_matchSelect (t1 t2 v : Nat) :
    Sound (matchSelect t1 t2 v : Build F Nat) (fun w o =>
      (w t1 = w t2 → w 0 = 0) ∧ (w 0 = 0 → w 1 = 1 → w o = if w t1 = w t2 then w v else 0)) := by
  unfold matchSelect isEqual
  simp only [bind_assoc, pure_bind]
  intro cs a cs' hw hm
  have h1 : Sound (do let p ← isEqualOrNotEqual t1 t2; mulV p.1 v : Build F Nat) (fun w o => w t1 = w t2 → w 0 = 0) :=
    Sound.bind (sound_isEqualOrNotEqual_raw t1 t2) (fun p => (sound_mulV p.1 v).cons (fun w o _ h => h))
  have h2 : Sound (do let p ← isEqualOrNotEqual t1 t2; mulV p.1 v : Build F Nat)
      (fun w o => w 0 = 0 → w 1 = 1 → w o = if w t1 = w t2 then w v else 0) := by
    refine Sound.bind (sound_isEqualOrNotEqual t1 t2) (fun p => (sound_mulV p.1 v).cons ?_)
    intro w o h h' h0 h1
    obtain ⟨a, b⟩ := h' h0 h1
    rw [h]
    split
    · rw [(a ‹_›).1, one_mul]
    · rw [(b ‹_›).1, zero_mul]
  obtain ⟨w', pv, mo, s1⟩ := h1 cs a cs' hw hm
  obtain ⟨_, pv2, mo2, s2⟩ := h2 cs a cs' hw hm
  exact ⟨w', pv, mo, fun w on hs => ⟨(s1 w on hs).1, (s1 w on hs).2, (s2 w on hs).2⟩⟩

theorem total_append (a b : List (F × F)) (t : F) : total (a ++ b) t = total a t + total b t := by
  simp [total]

theorem records_append (w : Nat → F) (a b : List (Nat × Nat)) : records w (a ++ b) = records w a ++ records w b := by
  simp [records]

theorem sound_sumOf (l : List (Nat × Nat)) (t : Nat) :
    Sound (sumOf l t : Build F Nat) (fun w s =>
      ((∃ p ∈ l, p.1 = t) → w 0 = 0) ∧ (w 0 = 0 → w 1 = 1 → w s = total (records w l) (w t))) := by
  unfold sumOf
  refine (Sound.foldlM _ (fun w pre s => ((∃ p ∈ pre, p.1 = t) → w 0 = 0) ∧
    (w 0 = 0 → w 1 = 1 → w s = total (records w pre) (w t))) l zeroVar ?_).cons ?_
  · intro pre s o _
    refine Sound.bind (sound_matchSelect t o.1 o.2) (fun a => (sound_addV s a).cons ?_)
    intro w s' hs ha hI
    refine ⟨?_, ?_⟩
    · rintro ⟨p, hp, rfl⟩
      rcases List.mem_append.mp hp with h | h
      · exact hI.1 ⟨p, h, rfl⟩
      · simp only [List.mem_singleton] at h
        subst h
        exact ha.1 rfl
    · intro h0 h1
      rw [hs, hI.2 h0 h1, ha.2 h0 h1, records_append, total_append]
      simp [records, total, eq_comm]
  · intro w s h
    refine h ⟨by simp, fun h0 _ => ?_⟩
    simp [records, total, zeroVar, h0]

theorem sound_typeSums (l : List (Nat × Nat)) :
    Sound (typeSums l : Build F (List (Nat × Nat))) (fun w bs => (l ≠ [] → w 0 = 0) ∧
      (w 0 = 0 → w 1 = 1 → List.Forall₂ (fun i b => b.1 = i.1 ∧ w b.2 = total (records w l) (w i.1)) l bs)) := by
  unfold typeSums
  refine (Sound.mapM _ (fun w i b => w 0 = 0 ∧ (w 1 = 1 → b.1 = i.1 ∧ w b.2 = total (records w l) (w i.1))) l ?_).cons ?_
  · intro i hi
    refine Sound.bind (sound_sumOf l i.1) (fun s => Sound.pure _ _ ?_)
    intro w h
    have h0 := h.1 ⟨i, hi, rfl⟩
    exact ⟨h0, fun h1 => ⟨rfl, h.2 h0 h1⟩⟩
  · intro w bs h
    refine ⟨fun hne => ?_, fun _ h1 => h.imp (fun i b hib => hib.2 h1)⟩
    cases h with
    | nil => exact absurd rfl hne
    | cons h _ => exact h.1

/-- what the inner loop establishes for the outputs seen so far -/
def PairInv (it is : Nat) (fe : Nat × Nat) (feeVar : Nat) (w : Nat → F) (pre : List (Nat × Nat)) (nm : Nat) : Prop :=
  w 0 = 0 → w 1 = 1 → ((∀ o ∈ pre, w it ≠ w o.1) → w nm = 1) ∧
    ∀ o ∈ pre, w it = w o.1 → w fe.2 * (w is - w o.2) = 0 ∧ w fe.1 * (w is - w o.2 - w feeVar) = 0

theorem sound_mixPair (it is : Nat) (fe : Nat × Nat) (feeVar nm : Nat) (o : Nat × Nat) (pre : List (Nat × Nat)) :
    Sound (mixPair it is fe feeVar nm o : Build F Nat)
      (fun w nm' => PairInv it is fe feeVar w pre nm → PairInv it is fe feeVar w (pre ++ [o]) nm') := by
  unfold mixPair
  refine Sound.bind (sound_isEqualOrNotEqual it o.1) (fun q => ?_)
  refine Sound.bind (sound_mulV nm q.2) (fun nm' => ?_)
  refine Sound.bind (sound_subV is o.2) (fun diff => ?_)
  refine Sound.bind (sound_mulV q.1 fe.2) (fun a => ?_)
  refine Sound.bind (sound_insertMulGate a diff zeroVar) (fun _ => ?_)
  refine Sound.bind (sound_mulV q.1 fe.1) (fun b => ?_)
  refine Sound.bind (sound_subV diff feeVar) (fun d => ?_)
  refine Sound.bind (sound_insertMulGate b d zeroVar) (fun _ => Sound.pure _ _ ?_)
  intro w g2 hd hb g1 ha hdiff hnm hq hI h0 h1
  obtain ⟨hI1, hI2⟩ := hI h0 h1
  obtain ⟨q1, q2⟩ := hq h0 h1
  refine ⟨?_, ?_⟩
  · intro hall
    rw [hnm, hI1 (fun o' ho' => hall o' (by simp [ho'])), (q2 (hall o (by simp))).2, one_mul]
  · intro o' ho' he
    rcases List.mem_append.mp ho' with h | h
    · exact hI2 o' h he
    · simp only [List.mem_singleton] at h
      subst h
      have hq1 := (q1 he).1
      unfold zeroVar at g1 g2
      rw [h0, ha, hq1, one_mul, hdiff] at g1
      rw [h0, hb, hq1, one_mul, hd, hdiff] at g2
      exact ⟨g1.symm, g2.symm⟩

/-- what the outer loop establishes for the inputs seen so far -/
def InputInv (outs : List (Nat × Nat)) (feeType : F) (feeVar : Nat) (w : Nat → F) (pre : List (Nat × Nat))
    (flag : Nat) : Prop :=
  w 0 = 0 → w 1 = 1 → ((∀ i ∈ pre, w i.1 ≠ feeType) → w flag = 1) ∧
    ∀ i ∈ pre,
      (w i.1 ≠ feeType → (∃ o ∈ outs, w i.1 = w o.1) ∧ ∀ o ∈ outs, w i.1 = w o.1 → w i.2 = w o.2) ∧
      (w i.1 = feeType → (∀ o ∈ outs, w i.1 = w o.1 → w i.2 = w o.2 + w feeVar) ∧
        ((∀ o ∈ outs, w i.1 ≠ w o.1) → w i.2 = w feeVar))

theorem sound_mixInput (outs : List (Nat × Nat)) (feeType : F) (fv feeVar flag : Nat) (i : Nat × Nat)
    (pre : List (Nat × Nat)) :
    Sound (mixInput outs fv feeVar flag i : Build F Nat) (fun w flag' => w fv = feeType →
      InputInv outs feeType feeVar w pre flag → InputInv outs feeType feeVar w (pre ++ [i]) flag') := by
  unfold mixInput
  refine Sound.bind (sound_isEqualOrNotEqual i.1 fv) (fun fe => ?_)
  refine Sound.bind (sound_mulV flag fe.2) (fun flag' => ?_)
  refine Sound.bind (Sound.foldlM _ (fun w pre nm => PairInv i.1 i.2 fe feeVar w pre nm) outs oneVar
    (fun pre nm o _ => sound_mixPair _ _ _ _ _ _ _)) (fun nm => ?_)
  refine Sound.bind (sound_insertMulGate fe.2 nm zeroVar) (fun _ => ?_)
  refine Sound.bind (sound_subV i.2 feeVar) (fun imf => ?_)
  refine Sound.bind (sound_mulV fe.1 nm) (fun c => ?_)
  refine Sound.bind (sound_insertMulGate c imf zeroVar) (fun _ => Sound.pure _ _ ?_)
  intro w g2 hc himf g1 hnm hflag hfe hfv hI h0 h1
  obtain ⟨hI1, hI2⟩ := hI h0 h1
  obtain ⟨fe1, fe2⟩ := hfe h0 h1
  rw [hfv] at fe1 fe2
  obtain ⟨n1, n2⟩ := hnm (fun _ h1 => ⟨fun _ => h1, by simp⟩) h0 h1
  unfold zeroVar at g1 g2
  rw [h0] at g1 g2
  refine ⟨?_, ?_⟩
  · intro hall
    rw [hflag, hI1 (fun o' ho' => hall o' (by simp [ho'])), (fe2 (hall i (by simp))).2, one_mul]
  · intro i' hi'
    rcases List.mem_append.mp hi' with h | h
    · exact hI2 i' h
    simp only [List.mem_singleton] at h
    subst h
    refine ⟨?_, ?_⟩
    · intro hne
      obtain ⟨f1, f2⟩ := fe2 hne
      rw [f2, one_mul] at g1
      refine ⟨?_, ?_⟩
      · by_contra hno
        push Not at hno
        rw [n1 hno] at g1
        exact one_ne_zero g1.symm
      · intro o ho he
        have := (n2 o ho he).1
        rw [f2, one_mul] at this
        exact sub_eq_zero.mp this
    · intro he
      obtain ⟨f1, f2⟩ := fe1 he
      refine ⟨?_, ?_⟩
      · intro o ho heo
        have := (n2 o ho heo).2
        rw [f1, one_mul] at this
        linear_combination this
      · intro hno
        rw [hc, f1, n1 hno, one_mul, one_mul, himf] at g2
        exact (sub_eq_zero.mp g2.symm)

theorem sound_mixOutput (ins : List (Nat × Nat)) (o : Nat × Nat) :
    Sound (mixOutput ins o : Build F Unit) (fun w _ => w 1 = 1 → ∃ i ∈ ins, w i.1 = w o.1) := by
  unfold mixOutput
  refine Sound.bind (Sound.foldlM _ (fun w pre p => w 1 = 1 → w p = 0 → ∃ i ∈ pre, w i.1 = w o.1) ins oneVar ?_)
    (fun p => ?_)
  · intro pre p i _
    refine Sound.bind (sound_subV i.1 o.1) (fun d => (sound_mulV p d).cons ?_)
    intro w p' hp hd hI h1 hz
    rw [hp, hd] at hz
    rcases mul_eq_zero.mp hz with h | h
    · obtain ⟨i', hi', e⟩ := hI h1 h
      exact ⟨i', by simp [hi'], e⟩
    · exact ⟨i, by simp, sub_eq_zero.mp h⟩
  · refine (sound_insertConstantGate p 0).cons ?_
    intro w _ hz h h1
    exact h (fun h1 hz => by unfold oneVar at hz; rw [h1] at hz; exact absurd hz one_ne_zero) h1 hz

theorem total_eq_zero (l : List (F × F)) (t : F) (h : ∀ p ∈ l, p.1 ≠ t) : total l t = 0 := by
  unfold total
  refine List.sum_eq_zero ?_
  intro x hx
  obtain ⟨p, hp, rfl⟩ := List.mem_map.mp hx
  rw [if_neg (h p hp)]

theorem sound_assetMixing_nil (outs : List (Nat × Nat)) (feeType : F) (feeVar : Nat) :
    Sound (assetMixing [] outs feeType feeVar : Build F Unit) (fun w _ => w 1 = 0) := by
  unfold assetMixing
  have : (typeSums [] : Build F (List (Nat × Nat))) = pure [] := by unfold typeSums; rw [List.mapM_nil]
  rw [this]
  simp only [pure_bind, List.foldlM_nil]
  refine Sound.bind (sound_typeSums outs) (fun outS => ?_)
  refine Sound.bind (sound_newVar _) (fun fv => ?_)
  refine Sound.bind (sound_insertConstantGate fv feeType) (fun _ => ?_)
  refine Sound.bind (sound_insertConstantGate oneVar 0) (fun _ => ?_)
  refine (Sound.foldlM _ (fun _ _ _ => True) outs () (fun pre _ o _ => (sound_mixOutput [] o).cons ?_)).cons ?_
  · intros; trivial
  · intro w _ _ h _ _ _
    exact h

/-- everything the mixing gates say, at the level of the field -/
theorem sound_assetMixing (ins outs : List (Nat × Nat)) (feeType : F) (feeVar : Nat) :
    Sound (assetMixing ins outs feeType feeVar : Build F Unit) (fun w _ => (ins ≠ [] → w 0 = 0) ∧ (w 1 = 1 →
      (∃ i ∈ ins, w i.1 = feeType) ∧ ∀ t, total (records w ins) t =
        total (records w outs) t + if t = feeType then w feeVar else 0)) := by
  by_cases hne : ins = []
  · subst hne
    refine (sound_assetMixing_nil outs feeType feeVar).cons ?_
    refine fun w _ h => ⟨fun h => absurd rfl h, fun h1 => ?_⟩
    rw [h] at h1
    exact absurd h1 zero_ne_one
  unfold assetMixing
  refine Sound.bind (sound_typeSums ins) (fun inS => ?_)
  refine Sound.bind (sound_typeSums outs) (fun outS => ?_)
  refine Sound.bind (sound_newVar _) (fun fv => ?_)
  refine Sound.bind (sound_insertConstantGate fv feeType) (fun _ => ?_)
  refine Sound.bind (Sound.foldlM _ (fun w pre flag => w fv = feeType → InputInv outS feeType feeVar w pre flag) inS oneVar
    (fun pre flag i _ => (sound_mixInput outS feeType fv feeVar flag i pre).cons
      (fun w a h hI hfv => h hfv (hI hfv)))) (fun flag => ?_)
  refine Sound.bind (sound_insertConstantGate flag 0) (fun _ => ?_)
  refine (Sound.foldlM _ (fun w pre _ => w 1 = 1 → ∀ o ∈ pre, ∃ i ∈ ins, w i.1 = w o.1) outs ()
    (fun pre _ o _ => (sound_mixOutput ins o).cons ?_)).cons ?_
  · intro w _ h hI h1 o' ho'
    rcases List.mem_append.mp ho' with hm | hm
    · exact hI h1 o' hm
    · simp only [List.mem_singleton] at hm
      subst hm
      exact h h1
  intro w _ hout hflag hin hfv _ hos his
  refine ⟨his.1, fun h1 => ?_⟩
  have hout := hout (by simp) h1
  have h0 : w 0 = 0 := his.1 hne
  have hos := hos.2 h0 h1
  have his := his.2 h0 h1
  obtain ⟨f1, f2⟩ := hin (fun _ _ h1 => ⟨fun _ => h1, by simp⟩) hfv h0 h1
  -- every input has its entry among the sums, and conversely
  have inEntry : ∀ i ∈ ins, ∃ b ∈ inS, b.1 = i.1 ∧ w b.2 = total (records w ins) (w i.1) := by
    intro i hi
    obtain ⟨k, hk, rfl⟩ := List.mem_iff_getElem.mp hi
    have hk' : k < inS.length := his.length_eq ▸ hk
    exact ⟨inS[k], List.getElem_mem _, his.get hk hk'⟩
  have entryIn : ∀ b ∈ inS, ∃ i ∈ ins, b.1 = i.1 := by
    intro b hb
    obtain ⟨k, hk, rfl⟩ := List.mem_iff_getElem.mp hb
    have hk' : k < ins.length := his.length_eq ▸ hk
    exact ⟨ins[k], List.getElem_mem _, (his.get hk' hk).1⟩
  have outEntry : ∀ i ∈ outs, ∃ b ∈ outS, b.1 = i.1 ∧ w b.2 = total (records w outs) (w i.1) := by
    intro i hi
    obtain ⟨k, hk, rfl⟩ := List.mem_iff_getElem.mp hi
    have hk' : k < outS.length := hos.length_eq ▸ hk
    exact ⟨outS[k], List.getElem_mem _, hos.get hk hk'⟩
  have entryOut : ∀ b ∈ outS, ∃ i ∈ outs, b.1 = i.1 ∧ w b.2 = total (records w outs) (w i.1) := by
    intro b hb
    obtain ⟨k, hk, rfl⟩ := List.mem_iff_getElem.mp hb
    have hk' : k < outs.length := hos.length_eq ▸ hk
    exact ⟨outs[k], List.getElem_mem _, hos.get hk' hk⟩
  have hfee : ∃ i ∈ ins, w i.1 = feeType := by
    by_contra hno
    push Not at hno
    have : w flag = 1 := f1 (fun b hb => by
      obtain ⟨i, hi, e⟩ := entryIn b hb
      rw [e]; exact hno i hi)
    rw [hflag] at this
    exact zero_ne_one this
  refine ⟨hfee, fun t => ?_⟩
  have zin : (∀ i ∈ ins, w i.1 ≠ t) → total (records w ins) t = 0 := fun h => total_eq_zero _ _ (by
    intro p hp
    obtain ⟨i, hi, rfl⟩ := List.mem_map.mp hp
    exact h i hi)
  have zout : (∀ o ∈ outs, w o.1 ≠ t) → total (records w outs) t = 0 := fun h => total_eq_zero _ _ (by
    intro p hp
    obtain ⟨i, hi, rfl⟩ := List.mem_map.mp hp
    exact h i hi)
  by_cases ht : t = feeType
  · rw [if_pos ht]
    obtain ⟨i, hi, hif⟩ := hfee
    obtain ⟨b, hb, hb1, hb2⟩ := inEntry i hi
    have hwb : w b.1 = feeType := by rw [hb1, hif]
    obtain ⟨g1, g2⟩ := (f2 b hb).2 hwb
    rw [hif, ← ht] at hb2
    by_cases hex : ∃ o ∈ outs, w o.1 = t
    · obtain ⟨o, ho, hot⟩ := hex
      obtain ⟨c, hc, hc1, hc2⟩ := outEntry o ho
      rw [← hb2, g1 c hc (by rw [hwb, hc1, hot, ht]), hc2, hot]
    · push Not at hex
      rw [← hb2, zout hex, zero_add]
      refine g2 (fun c hc => ?_)
      obtain ⟨o, ho, e, _⟩ := entryOut c hc
      rw [hwb, e, ← ht]
      exact fun h => hex o ho h.symm
  · rw [if_neg ht, add_zero]
    by_cases hex : ∃ i ∈ ins, w i.1 = t
    · obtain ⟨i, hi, hit⟩ := hex
      obtain ⟨b, hb, hb1, hb2⟩ := inEntry i hi
      have hwb : w b.1 = t := by rw [hb1, hit]
      obtain ⟨⟨c, hc, hbc⟩, g⟩ := (f2 b hb).1 (by rw [hwb]; exact ht)
      obtain ⟨o, ho, hc1, hc2⟩ := entryOut c hc
      have hot : w o.1 = t := by rw [← hc1, ← hbc, hwb]
      rw [hit] at hb2
      rw [hot] at hc2
      rw [← hb2, g c hc hbc, hc2]
    · push Not at hex
      rw [zin hex, zout]
      intro o ho hot
      obtain ⟨i, hi, e⟩ := hout o ho
      exact hex i hi (by rw [e, hot])

/-! ### From the field to the integers -/

variable [ScalarRepr F]

theorem totalNat_cast (l : List (F × F)) (t : F) : ((totalNat l t : Nat) : F) = total l t := by
  unfold totalNat total
  induction l with
  | nil => simp
  | cons p l ih =>
    simp only [List.map_cons, List.sum_cons, Nat.cast_add, ih]
    split
    · rw [ScalarRepr.cast_val]
    · simp

theorem totalNat_le (l : List (F × F)) (t : F) (B : Nat) (h : ∀ p ∈ l, ScalarRepr.val p.2 < B) :
    totalNat l t ≤ l.length * B := by
  unfold totalNat
  induction l with
  | nil => simp
  | cons p l ih =>
    simp only [List.map_cons, List.sum_cons, List.length_cons]
    have h1 := ih (fun q hq => h q (by simp [hq]))
    have h2 := h p (by simp)
    rw [Nat.succ_mul]
    split <;> omega

theorem cast_inj_of_lt {a b : Nat} (ha : a < ScalarRepr.order F) (hb : b < ScalarRepr.order F)
    (h : (a : F) = (b : F)) : a = b := by
  rw [← ScalarRepr.val_cast (F := F) a ha, ← ScalarRepr.val_cast (F := F) b hb, h]

/-- C51 (soundness), under the hypothesis that the variable `one_var` holds one (the missing part, see
`C51_mixing_unsound`): every assignment satisfying the mixing gates, in any circuit, whose amounts are below `2^64`
has an input of the fee type, and for every asset type the integer total of the inputs is the integer total of the
outputs, plus the fee for the fee type.  Nothing else is assumed: variable zero is forced to zero by the gates. -/
theorem C51_mixing_sound_partial (ins outs : List (Nat × Nat)) (feeType : F) (feeVar : Nat)
    (hi : ins.length * 2 ^ 64 < ScalarRepr.order F) (ho : (outs.length + 1) * 2 ^ 64 < ScalarRepr.order F) :
    Sound (assetMixing ins outs feeType feeVar : Build F Unit) (fun w _ => w 1 = 1 →
      (∀ p ∈ ins, ScalarRepr.val (w p.2) < 2 ^ 64) → (∀ p ∈ outs, ScalarRepr.val (w p.2) < 2 ^ 64) →
      ScalarRepr.val (w feeVar) < 2 ^ 64 →
      (∃ i ∈ ins, w i.1 = feeType) ∧
      ∀ t, totalNat (records w ins) t =
        totalNat (records w outs) t + if t = feeType then ScalarRepr.val (w feeVar) else 0) := by
  refine (sound_assetMixing ins outs feeType feeVar).cons ?_
  intro w _ h h1 ri ro rf
  obtain ⟨h2, h3⟩ := h.2 h1
  refine ⟨h2, fun t => ?_⟩
  have b1 := totalNat_le (records w ins) t (2 ^ 64) (by
    intro p hp
    obtain ⟨i, hi, rfl⟩ := List.mem_map.mp hp
    exact ri i hi)
  have b2 := totalNat_le (records w outs) t (2 ^ 64) (by
    intro p hp
    obtain ⟨i, hi, rfl⟩ := List.mem_map.mp hp
    exact ro i hi)
  have l1 : (records w ins).length = ins.length := by simp [records]
  have l2 : (records w outs).length = outs.length := by simp [records]
  rw [l1] at b1
  rw [l2] at b2
  rw [Nat.succ_mul] at ho
  refine cast_inj_of_lt (F := F) (by omega) (by split <;> omega) ?_
  rw [Nat.cast_add, totalNat_cast, totalNat_cast, h3 t]
  congr 1
  split
  · rw [ScalarRepr.cast_val]
  · simp

/-! ### Honest runs, and runs with a wrong constant -/

omit [ScalarRepr F]

/-- the variables of the records have the values `f` in the stored witness -/
def HasRecs (cs : CS F) (l : List (Nat × Nat)) (f : Nat → F) : Prop :=
  ∀ p ∈ l, Has cs p.1 (f p.1) ∧ Has cs p.2 (f p.2)

theorem HasRecs.mono {cs cs' : CS F} {pv : List Nat} (hw : WF cs) (h : Mono cs cs' pv) {l : List (Nat × Nat)}
    {f : Nat → F} (hv : HasRecs cs l f) : HasRecs cs' l f :=
  fun p hp => ⟨(hv p hp).1.mono hw h, (hv p hp).2.mono hw h⟩

theorem runs_matchSelect (t1 t2 v : Nat) (x y a u : F) (cs : CS F) (h0 : Has cs 0 0) (h1 : Has cs 1 u)
    (hx : Has cs t1 x) (hy : Has cs t2 y) (ha : Has cs v a) (hu : x ≠ y → u = 1) :
    Runs (matchSelect t1 t2 v) cs (fun o cs' => Has cs' o (u * if y = x then a else 0)) := by
  unfold matchSelect isEqual
  simp only [bind_assoc, pure_bind]
  refine Runs.bind (runs_isEqualOrNotEqual_u t1 t2 x y u cs h0 h1 hx hy hu) ?_
  rintro p cs1 w0 w1 m1 ⟨hp, -⟩
  adv w0 m1
  refine (runs_mulV p.1 v _ _ cs1 hp ha).cons ?_
  intro o cs2 _ _ _ ho
  convert ho using 1
  by_cases hxy : x = y
  · simp [hxy]
  · simp [hxy, Ne.symm hxy]

theorem runs_sumOf (l : List (Nat × Nat)) (t : Nat) (f : Nat → F) (u : F) (cs : CS F) (h0 : Has cs 0 0)
    (h1 : Has cs 1 u) (ht : Has cs t (f t)) (hl : HasRecs cs l f) (hu : ∀ p ∈ l, f t ≠ f p.1 → u = 1) :
    Runs (sumOf l t) cs (fun o cs' => Has cs' o (u * total (records f l) (f t))) := by
  unfold sumOf
  refine Runs.withWF fun w0 => ?_
  refine Runs.foldlM _ (fun cs pre s => Has cs s (u * total (records f pre) (f t)))
    (fun _ _ _ _ w m h => h.mono w m) l zeroVar cs ?_ ?_
  · simpa [records, total, zeroVar] using h0
  · intro cs1 pre s o post mo e w1 hs
    adv w0 mo
    have ho : o ∈ l := by rw [e]; simp
    refine Runs.bind (runs_matchSelect t o.1 o.2 _ _ _ u cs1 h0 h1 ht (hl o ho).1 (hl o ho).2 (hu o ho)) ?_
    intro a cs2 _ w2 m2 ha
    adv w1 m2
    refine (runs_addV s a _ _ cs2 hs ha).cons ?_
    intro o' cs3 _ _ _ ho'
    convert ho' using 1
    rw [records_append, total_append, mul_add]
    simp [records, total]

/-- the result of `typeSums` in the stored witness: an entry for every record, holding its type and total -/
def HasSums (cs : CS F) (l : List (Nat × Nat)) (f : Nat → F) (u : F) (bs : List (Nat × Nat)) : Prop :=
  (∀ b ∈ bs, ∃ i ∈ l, b.1 = i.1 ∧ Has cs b.1 (f i.1) ∧ Has cs b.2 (u * total (records f l) (f i.1))) ∧
  ∀ i ∈ l, ∃ b ∈ bs, b.1 = i.1

theorem HasSums.mono {cs cs' : CS F} {pv : List Nat} (hw : WF cs) (h : Mono cs cs' pv) {l bs : List (Nat × Nat)}
    {f : Nat → F} {u : F} (hv : HasSums cs l f u bs) : HasSums cs' l f u bs := by
  refine ⟨fun b hb => ?_, hv.2⟩
  obtain ⟨i, hi, e, h1, h2⟩ := hv.1 b hb
  exact ⟨i, hi, e, h1.mono hw h, h2.mono hw h⟩

theorem runs_typeSums (l : List (Nat × Nat)) (f : Nat → F) (u : F) (cs : CS F) (h0 : Has cs 0 0)
    (h1 : Has cs 1 u) (hl : HasRecs cs l f) (hu : ∀ p ∈ l, ∀ q ∈ l, f p.1 ≠ f q.1 → u = 1) :
    Runs (typeSums l) cs (fun bs cs' => HasSums cs' l f u bs) := by
  unfold typeSums
  refine Runs.withWF fun w0 => ?_
  refine (Runs.mapM _ (fun cs (i b : Nat × Nat) => b.1 = i.1 ∧ Has cs b.1 (f i.1) ∧ Has cs b.2 (u * total (records f l) (f i.1)))
    (fun _ _ _ _ w m h => ⟨h.1, h.2.1.mono w m, h.2.2.mono w m⟩) l cs ?_).cons ?_
  · intro cs1 i hi mo w1
    adv w0 mo
    refine Runs.bind (runs_sumOf l i.1 f u cs1 h0 h1 (hl i hi).1 hl (hu i hi)) ?_
    intro s cs2 _ w2 m2 hs
    adv w1 m2
    exact Runs.pure _ _ _ ⟨rfl, (hl i hi).1, hs⟩
  · intro bs cs1 _ _ _ h
    refine ⟨?_, ?_⟩
    · intro b hb
      obtain ⟨k, hk, rfl⟩ := List.mem_iff_getElem.mp hb
      have hk' : k < l.length := h.length_eq ▸ hk
      exact ⟨l[k], List.getElem_mem _, h.get hk' hk⟩
    · intro i hi
      obtain ⟨k, hk, rfl⟩ := List.mem_iff_getElem.mp hi
      have hk' : k < bs.length := h.length_eq ▸ hk
      exact ⟨bs[k], List.getElem_mem _, (h.get hk hk').1⟩

theorem runs_mixPair (it is : Nat) (fe : Nat × Nat) (feeVar nm : Nat) (o : Nat × Nat) (x s y s' e1 e2 fv n u : F)
    (cs : CS F) (h0 : Has cs 0 0) (h1 : Has cs 1 u) (hit : Has cs it x) (his : Has cs is s) (he1 : Has cs fe.1 e1)
    (he2 : Has cs fe.2 e2) (hfv : Has cs feeVar fv) (hnm : Has cs nm n) (ho1 : Has cs o.1 y) (ho2 : Has cs o.2 s')
    (hu : x ≠ y → u = 1) (g1 : x = y → u * e2 * (s - s') = 0) (g2 : x = y → u * e1 * (s - s' - fv) = 0) :
    Runs (mixPair it is fe feeVar nm o) cs (fun nm' cs' => Has cs' nm' (n * if x = y then 0 else u)) := by
  unfold mixPair
  refine Runs.bind (runs_isEqualOrNotEqual_u it o.1 x y u cs h0 h1 hit ho1 hu) ?_
  rintro q cs1 w0 w1 m1 ⟨hq1, hq2⟩
  adv w0 m1
  refine Runs.bind (runs_mulV nm q.2 _ _ cs1 hnm hq2) ?_
  intro nm' cs2 _ w2 m2 hnm'
  adv w1 m2
  refine Runs.bind (runs_subV is o.2 _ _ cs2 his ho2) ?_
  intro diff cs3 _ w3 m3 hdiff
  adv w2 m3
  refine Runs.bind (runs_mulV q.1 fe.2 _ _ cs3 hq1 he2) ?_
  intro a cs4 _ w4 m4 ha
  adv w3 m4
  refine Runs.bind (runs_insertMulGate a diff zeroVar _ _ _ cs4 ha hdiff h0 ?_) ?_
  · by_cases hxy : x = y
    · rw [if_pos hxy, g1 hxy]
    · rw [if_neg hxy]; ring
  intro _ cs5 _ w5 m5 _
  adv w4 m5
  refine Runs.bind (runs_mulV q.1 fe.1 _ _ cs5 hq1 he1) ?_
  intro b cs6 _ w6 m6 hb
  adv w5 m6
  refine Runs.bind (runs_subV diff feeVar _ _ cs6 hdiff hfv) ?_
  intro d cs7 _ w7 m7 hd
  adv w6 m7
  refine Runs.bind (runs_insertMulGate b d zeroVar _ _ _ cs7 hb hd h0 ?_) ?_
  · by_cases hxy : x = y
    · rw [if_pos hxy, g2 hxy]
    · rw [if_neg hxy]; ring
  intro _ cs8 _ w8 m8 _
  adv w7 m8
  exact Runs.pure _ _ _ hnm'

namespace Spec

/-- what the mixing circuit asks of the records `f` gives to `ins` and `outs` -/
structure Mixes (f : Nat → F) (ins outs : List (Nat × Nat)) (feeType fee : F) : Prop where
  hasFee : ∃ i ∈ ins, f i.1 = feeType
  outIn : ∀ o ∈ outs, ∃ i ∈ ins, f i.1 = f o.1
  inOut : ∀ i ∈ ins, f i.1 ≠ feeType → ∃ o ∈ outs, f i.1 = f o.1
  balance : ∀ t, total (records f ins) t = total (records f outs) t + if t = feeType then fee else 0

end Spec

/-- an honest prover with the constant one, or any prover with the constant zero and a single type -/
def MixMode (f : Nat → F) (ins outs : List (Nat × Nat)) (feeType fee u : F) : Prop :=
  (u = 1 ∧ Mixes f ins outs feeType fee) ∨
  (u = 0 ∧ ins ≠ [] ∧ (∀ p ∈ ins, f p.1 = feeType) ∧ ∀ p ∈ outs, f p.1 = feeType)

theorem runs_assetMixing_u (ins outs : List (Nat × Nat)) (feeType fee u : F) (feeVar : Nat) (f : Nat → F) (cs : CS F)
    (h0 : Has cs 0 0) (h1 : Has cs 1 u) (hi : HasRecs cs ins f) (ho : HasRecs cs outs f) (hfee : Has cs feeVar fee)
    (hm : MixMode f ins outs feeType fee u) :
    Runs (assetMixing ins outs feeType feeVar) cs (fun _ _ => True) := by
  have uu : ∀ x y : F, u ≠ 1 → (∃ p ∈ ins ++ outs, f p.1 = x) → (∃ p ∈ ins ++ outs, f p.1 = y) → x = feeType ∧
      y = feeType := by
    rintro x y hu ⟨p, hp, rfl⟩ ⟨q, hq, rfl⟩
    rcases hm with hm | hm
    · exact absurd hm.1 hu
    · have : ∀ p ∈ ins ++ outs, f p.1 = feeType := by
        intro p hp
        rcases List.mem_append.mp hp with h | h
        · exact hm.2.2.1 p h
        · exact hm.2.2.2 p h
      exact ⟨this p hp, this q hq⟩
  have u2 : ∀ p ∈ ins ++ outs, ∀ q ∈ ins ++ outs, f p.1 ≠ f q.1 → u = 1 := by
    intro p hp q hq hne
    by_contra hu
    obtain ⟨a, b⟩ := uu _ _ hu ⟨p, hp, rfl⟩ ⟨q, hq, rfl⟩
    exact hne (a.trans b.symm)
  have u1 : ∀ p ∈ ins ++ outs, f p.1 ≠ feeType → u = 1 := by
    intro p hp hne
    by_contra hu
    exact hne (uu _ _ hu ⟨p, hp, rfl⟩ ⟨p, hp, rfl⟩).1
  unfold assetMixing
  refine Runs.bind (runs_typeSums ins f u cs h0 h1 hi
    (fun p hp q hq => u2 p (by simp [hp]) q (by simp [hq]))) ?_
  intro inS cs1 w0 w1 m1 hin
  adv w0 m1
  refine Runs.bind (runs_typeSums outs f u cs1 h0 h1 ho
    (fun p hp q hq => u2 p (by simp [hp]) q (by simp [hq]))) ?_
  intro outS cs2 _ w2 m2 hout
  adv w1 m2
  refine Runs.bind (runs_newVar _ _) ?_
  intro fv cs3 _ w3 m3 hfv
  adv w2 m3
  refine Runs.bind (runs_insertConstantGate fv feeType cs3 hfv) ?_
  intro _ cs4 _ w4 m4 _
  adv w3 m4
  refine Runs.bind (Q := fun flag cs => Has cs flag 0) ?_ ?_
  · -- the outer loop
    refine (Runs.foldlM _ (fun cs pre flag => ∃ x, Has cs flag x ∧ (u = 0 → x = 0) ∧
      ((∃ i ∈ ins, f i.1 = feeType ∧ ∃ b ∈ pre, b.1 = i.1) → x = 0))
      (fun _ _ _ _ w m h => by obtain ⟨x, h, h'⟩ := h; exact ⟨x, h.mono w m, h'⟩) inS oneVar cs4 ?_ ?_).cons ?_
    · exact ⟨u, h1, id, by simp⟩
    · intro cs5 pre flag b post m5 e w5 hI
      obtain ⟨fl, hfl, hfl0, hfl1⟩ := hI
      adv w4 m5
      have hb : b ∈ inS := by rw [e]; simp
      obtain ⟨i, hii, hbi, hb1, hb2⟩ := hin.1 b hb
      have hi' : i ∈ ins ++ outs := by simp [hii]
      unfold mixInput
      refine Runs.bind (runs_isEqualOrNotEqual_u b.1 fv _ _ u cs5 h0 h1 hb1 hfv (u1 i hi')) ?_
      rintro fe cs6 _ w6 m6 ⟨he1, he2⟩
      adv w5 m6
      refine Runs.bind (runs_mulV flag fe.2 _ _ cs6 hfl he2) ?_
      intro flag' cs7 _ w7 m7 hflag'
      adv w6 m7
      have bal : ∀ o ∈ outs, u ≠ 0 → f i.1 = f o.1 → total (records f ins) (f i.1) =
          total (records f outs) (f o.1) + if f i.1 = feeType then fee else 0 := by
        intro o hoo hu he
        rcases hm with hm | hm
        · rw [← he]; exact hm.2.balance _
        · exact absurd hm.1 hu
      refine Runs.bind (Q := fun nm cs => ∃ n, Has cs nm n ∧ (u = 0 → n = 0) ∧
          ((∃ o ∈ outs, f i.1 = f o.1) → n = 0)) ?_ ?_
      · refine (Runs.foldlM _ (fun cs pre nm => ∃ n, Has cs nm n ∧ (u = 0 → n = 0) ∧
          ((∃ o ∈ outs, f i.1 = f o.1 ∧ ∃ c ∈ pre, c.1 = o.1) → n = 0))
          (fun _ _ _ _ w m h => by obtain ⟨x, h, h'⟩ := h; exact ⟨x, h.mono w m, h'⟩) outS oneVar cs7 ?_ ?_).cons ?_
        · exact ⟨u, h1, id, by simp⟩
        · intro cs8 pre' nm c post' m8 e' w8 hI'
          obtain ⟨n, hn, hn0, hn1⟩ := hI'
          adv w7 m8
          have hc : c ∈ outS := by rw [e']; simp
          obtain ⟨o, hoo, hco, hc1, hc2⟩ := hout.1 c hc
          refine (runs_mixPair b.1 b.2 fe feeVar nm c _ _ _ _ _ _ _ _ u cs8 h0 h1 hb1 hb2 he1 he2 hfee hn hc1 hc2
            (u2 i hi' o (by simp [hoo])) ?_ ?_).cons ?_
          · intro he
            by_cases hu : u = 0
            · rw [hu]; ring
            · by_cases hf : f i.1 = feeType
              · rw [if_pos hf]; ring
              · rw [bal o hoo hu he, if_neg hf, if_neg hf]; ring
          · intro he
            by_cases hu : u = 0
            · rw [hu]; ring
            · by_cases hf : f i.1 = feeType
              · have hu1 : u = 1 := by
                  rcases hm with hm | hm
                  · exact hm.1
                  · exact absurd hm.1 hu
                rw [bal o hoo hu he, if_pos hf, hu1, if_pos hf]; ring
              · rw [if_neg hf]; ring
          · intro nm' cs9 _ _ _ h
            refine ⟨_, h, fun hu => by rw [hn0 hu, zero_mul], ?_⟩
            rintro ⟨o', ho', he', c', hc', hce⟩
            rcases List.mem_append.mp hc' with hp | hp
            · rw [hn1 ⟨o', ho', he', c', hp, hce⟩, zero_mul]
            · simp only [List.mem_singleton] at hp
              subst hp
              have : f o.1 = f o'.1 := by rw [← hco, hce]
              rw [if_pos (he'.trans this.symm), mul_zero]
        · intro nm cs8 _ _ _ h
          obtain ⟨n, h, ha, hb⟩ := h
          refine ⟨n, h, ha, ?_⟩
          rintro ⟨o, hoo, he⟩
          obtain ⟨c, hc, hce⟩ := hout.2 o hoo
          exact hb ⟨o, hoo, he, c, hc, hce⟩
      · rintro nm cs8 _ w8 m8 ⟨n, hn, hn0, hn1⟩
        adv w7 m8
        refine Runs.bind (runs_insertMulGate fe.2 nm zeroVar _ _ _ cs8 he2 hn h0 ?_) ?_
        · by_cases hf : f i.1 = feeType
          · rw [if_pos hf, zero_mul]
          · rw [hn1 ?_, mul_zero]
            rcases hm with hm | hm
            · exact hm.2.inOut i hii hf
            · exact absurd (hm.2.2.1 i hii) hf
        intro _ cs9 _ w9 m9 _
        adv w8 m9
        refine Runs.bind (runs_subV b.2 feeVar _ _ cs9 hb2 hfee) ?_
        intro imf cs10 _ w10 m10 himf
        adv w9 m10
        refine Runs.bind (runs_mulV fe.1 nm _ _ cs10 he1 hn) ?_
        intro c cs11 _ w11 m11 hc
        adv w10 m11
        refine Runs.bind (runs_insertMulGate c imf zeroVar _ _ _ cs11 hc himf h0 ?_) ?_
        · by_cases hf : f i.1 = feeType
          · rw [if_pos hf]
            rcases hm with hm | hm
            · by_cases hex : ∃ o ∈ outs, f i.1 = f o.1
              · rw [hn1 hex]; ring
              · push Not at hex
                have := hm.2.balance (f i.1)
                rw [if_pos hf, total_eq_zero (records f outs) (f i.1) (by
                  intro p hp
                  obtain ⟨o, hoo, rfl⟩ := List.mem_map.mp hp
                  exact fun h => hex o hoo h.symm)] at this
                rw [this, hm.1]; ring
            · rw [hm.1]; ring
          · rw [if_neg hf]; ring
        intro _ cs12 _ w12 m12 _
        adv w11 m12
        refine Runs.pure _ _ _ ⟨_, hflag', fun hu => by rw [hfl0 hu, zero_mul], ?_⟩
        rintro ⟨i', hi'', hf', b', hb', hbe⟩
        rcases List.mem_append.mp hb' with hp | hp
        · rw [hfl1 ⟨i', hi'', hf', b', hp, hbe⟩, zero_mul]
        · simp only [List.mem_singleton] at hp
          subst hp
          have : f i.1 = f i'.1 := by rw [← hbi, hbe]
          rw [if_pos (this.trans hf'), mul_zero]
    · intro flag cs5 _ _ _ h
      obtain ⟨x, hx, hx0, hx1⟩ := h
      have : x = 0 := by
        rcases hm with hm | hm
        · obtain ⟨i, hii, hf⟩ := hm.2.hasFee
          obtain ⟨b, hb, hbe⟩ := hin.2 i hii
          exact hx1 ⟨i, hii, hf, b, hb, hbe⟩
        · exact hx0 hm.1
      rwa [this] at hx
  intro flag cs5 _ w5 m5 hflag
  adv w4 m5
  refine Runs.bind (runs_insertConstantGate flag 0 cs5 hflag) ?_
  intro _ cs6 _ w6 m6 _
  adv w5 m6
  refine (Runs.foldlM _ (fun _ _ _ => True) (fun _ _ _ _ _ _ h => h) outs () cs6 trivial ?_)
  intro cs7 pre _ o post m7 e w7 _
  adv w6 m7
  have hoo : o ∈ outs := by rw [e]; simp
  unfold mixOutput
  refine Runs.bind (Runs.foldlM _ (fun cs pre p => ∃ x, Has cs p x ∧ (u = 0 → x = 0) ∧
    ((∃ i ∈ pre, f i.1 = f o.1) → x = 0))
    (fun _ _ _ _ w m h => by obtain ⟨x, h, h'⟩ := h; exact ⟨x, h.mono w m, h'⟩) ins oneVar cs7
    ⟨u, h1, id, by simp⟩ ?_) ?_
  · intro cs8 pre' p i post' m8 e' w8 hI
    obtain ⟨x, hx, hx0, hx1⟩ := hI
    adv w7 m8
    have hii : i ∈ ins := by rw [e']; simp
    refine Runs.bind (runs_subV i.1 o.1 _ _ cs8 (hi i hii).1 (ho o hoo).1) ?_
    intro d cs9 _ w9 m9 hd
    adv w8 m9
    refine (runs_mulV p d _ _ cs9 hx hd).cons ?_
    intro p' cs10 _ _ _ hp'
    refine ⟨_, hp', fun hu => by rw [hx0 hu, zero_mul], ?_⟩
    rintro ⟨i', hi', he'⟩
    rcases List.mem_append.mp hi' with hp | hp
    · rw [hx1 ⟨i', hp, he'⟩, zero_mul]
    · simp only [List.mem_singleton] at hp
      subst hp
      rw [he', sub_self, mul_zero]
  · rintro p cs8 _ w8 m8 ⟨x, hx, hx0, hx1⟩
    have : x = 0 := by
      rcases hm with hm | hm
      · exact hx1 (hm.2.outIn o hoo)
      · exact hx0 hm.1
    rw [this] at hx
    exact runs_insertConstantGate p 0 cs8 hx

/-- C51 (completeness): on any circuit whose stored witness satisfies it and has the right constants, if the records
balance, one input has the fee type, every output type is an input type and every non-fee input type is an output type,
then the builder does not panic and the stored witness satisfies the mixing gates. -/
theorem C51_mixing_complete (ins outs : List (Nat × Nat)) (feeType fee : F) (feeVar : Nat) (f : Nat → F) (cs : CS F)
    (h0 : Has cs 0 0) (h1 : Has cs 1 1) (hi : HasRecs cs ins f) (ho : HasRecs cs outs f) (hfee : Has cs feeVar fee)
    (hm : Mixes f ins outs feeType fee) :
    Runs (assetMixing ins outs feeType feeVar) cs (fun _ _ => True) :=
  runs_assetMixing_u ins outs feeType fee 1 feeVar f cs h0 h1 hi ho hfee (.inl ⟨rfl, hm⟩)

omit [DecidableEq F] in
theorem uniform_matchSelect (a b c : Nat) : Uniform (F := F) (· = ·) (matchSelect a b c) (matchSelect a b c) := by
  unfold matchSelect isEqual
  simp only [bind_assoc, pure_bind]
  refine Uniform.bind (uniform_isEqualOrNotEqual a b) (fun p _ e => ?_); subst e
  exact uniform_mulV _ _

omit [DecidableEq F] in
theorem uniform_typeSums (l : List (Nat × Nat)) : Uniform (F := F) (· = ·) (typeSums l) (typeSums l) := by
  unfold typeSums sumOf
  refine Uniform.mapM _ _ _ (fun i _ => ?_)
  refine Uniform.bind (Uniform.foldlM (ρ := (· = ·)) _ _ _ (fun a b o _ e => ?_) _ _ rfl) (fun s _ e => ?_)
  · subst e
    refine Uniform.bind (uniform_matchSelect _ _ _) (fun p _ e => ?_); subst e
    exact uniform_addV _ _
  · subst e
    exact Uniform.pure _ _ rfl

omit [DecidableEq F] in
theorem uniform_mixPair (it is : Nat) (fe : Nat × Nat) (feeVar nm : Nat) (o : Nat × Nat) :
    Uniform (F := F) (· = ·) (mixPair it is fe feeVar nm o) (mixPair it is fe feeVar nm o) := by
  unfold mixPair
  refine Uniform.bind (uniform_isEqualOrNotEqual _ _) (fun q _ e => ?_); subst e
  refine Uniform.bind (uniform_mulV _ _) (fun nm _ e => ?_); subst e
  refine Uniform.bind (uniform_subV _ _) (fun d _ e => ?_); subst e
  refine Uniform.bind (uniform_mulV _ _) (fun a _ e => ?_); subst e
  refine Uniform.bind (uniform_insertMulGate _ _ _) (fun _ _ _ => ?_)
  refine Uniform.bind (uniform_mulV _ _) (fun b _ e => ?_); subst e
  refine Uniform.bind (uniform_subV _ _) (fun d _ e => ?_); subst e
  exact Uniform.bind (uniform_insertMulGate _ _ _) (fun _ _ _ => Uniform.pure _ _ rfl)

omit [DecidableEq F] in
/-- C51: prover and verifier build the same mixing circuit: it depends on the variables and the fee type only. -/
theorem C51_mixing_uniform (ins outs : List (Nat × Nat)) (feeType : F) (feeVar : Nat) :
    Uniform (· = ·) (assetMixing ins outs feeType feeVar) (assetMixing ins outs feeType feeVar) := by
  unfold assetMixing
  refine Uniform.bind (uniform_typeSums _) (fun a _ e => ?_); subst e
  refine Uniform.bind (uniform_typeSums _) (fun b _ e => ?_); subst e
  refine Uniform.bind (uniform_newVar _ _) (fun fv _ e => ?_); subst e
  refine Uniform.bind (uniform_insertConstantGate _ _) (fun _ _ _ => ?_)
  refine Uniform.bind (Uniform.foldlM (ρ := (· = ·)) _ _ _ (fun x y i _ e => ?_) _ _ rfl) (fun flag _ e => ?_)
  · subst e
    unfold mixInput
    refine Uniform.bind (uniform_isEqualOrNotEqual _ _) (fun fe _ e => ?_); subst e
    refine Uniform.bind (uniform_mulV _ _) (fun fl _ e => ?_); subst e
    refine Uniform.bind (Uniform.foldlM (ρ := (· = ·)) _ _ _
      (fun x y i _ e => by subst e; exact uniform_mixPair _ _ _ _ _ _) _ _ rfl) (fun nm _ e => ?_); subst e
    refine Uniform.bind (uniform_insertMulGate _ _ _) (fun _ _ _ => ?_)
    refine Uniform.bind (uniform_subV _ _) (fun d _ e => ?_); subst e
    refine Uniform.bind (uniform_mulV _ _) (fun c _ e => ?_); subst e
    exact Uniform.bind (uniform_insertMulGate _ _ _) (fun _ _ _ => Uniform.pure _ _ rfl)
  · subst e
    refine Uniform.bind (uniform_insertConstantGate _ _) (fun _ _ _ => ?_)
    refine Uniform.foldlM (ρ := (· = ·)) _ _ _ (fun x y o _ e => ?_) _ _ rfl
    unfold mixOutput
    refine Uniform.bind (Uniform.foldlM (ρ := (· = ·)) _ _ _ (fun x y i _ e => ?_) _ _ rfl) (fun p _ e => ?_)
    · subst e
      refine Uniform.bind (uniform_subV _ _) (fun d _ e => ?_); subst e
      exact uniform_mulV _ _
    · subst e
      exact uniform_insertConstantGate _ _

/-! ### The mixing gates alone do not stop inflation -/

/-- a circuit with one input and one output of the same type, both range checked, the fee made public, and the
mixing gates; the order follows `build_multi_xfr_cs`, abar_to_abar.rs:529-655 -/
def mixCircuit [ScalarRepr F] (feeType tIn aIn tOut aOut fee : F) : Build F Unit := do
  let ti ← newVar (fun _ => tIn)
  let ai ← newVar (fun _ => aIn)
  let tr ← newVar (fun _ => tOut)
  let ao ← newVar (fun _ => aOut)
  let _ ← rangeCheck ai 64
  let _ ← rangeCheck ao 64
  let fv ← newVar (fun _ => fee)
  preparePi fv
  assetMixing [(ti, ai)] [(tr, ao)] feeType fv

omit [DecidableEq F] in
/-- the shape of the circuit does not depend on the records -/
theorem uniform_mixCircuit [ScalarRepr F] (feeType t1 a1 t2 a2 fee t1' a1' t2' a2' fee' : F) :
    Uniform (· = ·) (mixCircuit feeType t1 a1 t2 a2 fee) (mixCircuit feeType t1' a1' t2' a2' fee') := by
  unfold mixCircuit
  refine Uniform.bind (uniform_newVar _ _) (fun a _ e => ?_); subst e
  refine Uniform.bind (uniform_newVar _ _) (fun b _ e => ?_); subst e
  refine Uniform.bind (uniform_newVar _ _) (fun c _ e => ?_); subst e
  refine Uniform.bind (uniform_newVar _ _) (fun d _ e => ?_); subst e
  refine Uniform.bind (uniform_rangeCheck _ _) (fun _ _ _ => ?_)
  refine Uniform.bind (uniform_rangeCheck _ _) (fun _ _ _ => ?_)
  refine Uniform.bind (uniform_newVar _ _) (fun fv _ e => ?_); subst e
  refine Uniform.bind (uniform_preparePi _) (fun _ _ _ => ?_)
  exact C51_mixing_uniform _ _ _ _

/-- the fresh system with a wrong value in the witness for variable one -/
def newWrong : CS F := { CS.new with witness := [0, 0] }

omit [DecidableEq F] in
theorem WF.newWrong : WF (newWrong : CS F) where
  len := rfl
  pi := by intro k c v h; simp [Anon.newWrong, CS.new] at h
  nodup := by simp [Anon.newWrong, CS.new]
  bool := by simp [Anon.newWrong, CS.new]
  wit := rfl
  wires := by simp [Anon.newWrong, CS.new]
  two := by simp [Anon.newWrong, CS.new]

omit [DecidableEq F] in
theorem newWrong_hsat : HSat (newWrong : CS F) := by
  intro i g h
  simp [newWrong, CS.new] at h

omit [DecidableEq F] in
/-- C51 fails without the hypothesis on `one_var`: for every fee type, all amounts below `2^64` and every fee, the circuit
the verifier builds is satisfied by an assignment with a single input of amount `a` and a single output of amount
`b`, both of the fee type. -/
theorem C51_mixing_unsound [ScalarRepr F] (feeType a b fee : F) (ha : ScalarRepr.val a < 2 ^ 64)
    (hb : ScalarRepr.val b < 2 ^ 64) (u1 u2 u3 u4 u5 : F) :
    ∃ cs : CS F, mixCircuit feeType u1 u2 u3 u4 u5 CS.new = some ((), cs) ∧
    ∃ w : Nat → F, Sat cs w [fee] ∧ w 2 = feeType ∧ w 3 = a ∧ w 4 = feeType ∧ w 5 = b := by
  classical
  have hrun : RunsP (mixCircuit feeType feeType a feeType b fee) (newWrong : CS F)
      (fun _ cs' pv => (∃ v, pv = [v] ∧ Has cs' v fee) ∧ Has cs' 2 feeType ∧ Has cs' 3 a ∧ Has cs' 4 feeType ∧
        Has cs' 5 b) := by
    have z0 : Has (newWrong : CS F) 0 0 := ⟨by simp [newWrong, CS.new], by simp [CS.value, newWrong, CS.new]⟩
    have z1 : Has (newWrong : CS F) 1 0 := ⟨by simp [newWrong, CS.new], by simp [CS.value, newWrong, CS.new]⟩
    have hn : (newWrong : CS F).numVars = 2 := rfl
    unfold mixCircuit
    refine RunsP.bindR (runs_newVar_idx _ _) ?_
    rintro ti cs1 w0 w1 m1 ⟨i1, n1, hti⟩
    adv w0 m1
    refine RunsP.bindR (runs_newVar_idx _ _) ?_
    rintro ai cs2 _ w2 m2 ⟨i2, n2, hai⟩
    adv w1 m2
    refine RunsP.bindR (runs_newVar_idx _ _) ?_
    rintro tr cs3 _ w3 m3 ⟨i3, n3, htr⟩
    adv w2 m3
    refine RunsP.bindR (runs_newVar_idx _ _) ?_
    rintro ao cs4 _ w4 m4 ⟨i4, n4, hao⟩
    adv w3 m4
    have e1 : ti = 2 := by omega
    have e2 : ai = 3 := by omega
    have e3 : tr = 4 := by omega
    have e4 : ao = 5 := by omega
    subst e1 e2 e3 e4
    clear i1 i2 i3 i4
    refine RunsP.bindR (runs_rangeCheck 3 64 a cs4 (by norm_num) z0 hai ha) ?_
    intro _ cs5 _ w5 m5 _
    adv w4 m5
    refine RunsP.bindR (runs_rangeCheck 5 64 b cs5 (by norm_num) z0 hao hb) ?_
    intro _ cs6 _ w6 m6 _
    adv w5 m6
    refine RunsP.bindR (runs_newVar_idx _ _) ?_
    rintro fv cs7 _ w7 m7 ⟨-, -, hfv⟩
    adv w6 m7
    refine RunsP.bind (runsP_preparePi fv cs7 hfv.1) ?_
    rintro _ cs8 pv _ w8 m8 rfl
    adv w7 m8
    refine RunsP.cons (runs_assetMixing_u [(2, 3)] [(4, 5)] feeType fee 0 fv
      (fun v => if v = 2 ∨ v = 4 then feeType else if v = 3 then a else b) cs8 z0 z1 ?_ ?_ hfv
      (.inr ⟨rfl, by simp, by simp, by simp⟩)) ?_
    · intro p hp
      simp only [List.mem_singleton] at hp
      subst hp
      simpa using ⟨hti, hai⟩
    · intro p hp
      simp only [List.mem_singleton] at hp
      subst hp
      simpa using ⟨htr, hao⟩
    · rintro _ cs9 pv' _ w9 m9 ⟨rfl, -⟩
      adv w8 m9
      exact ⟨⟨fv, rfl, hfv⟩, hti, hai, htr, hao⟩
  obtain ⟨_, cs', pv, e, w', s', mo, ⟨v, rfl, hv⟩, h2, h3, h4, h5⟩ := hrun WF.newWrong newWrong_hsat
  have hon : CS.online cs' = [fee] := by
    rw [online_mono mo]
    simp only [newWrong, CS.new, List.nil_append, List.map_cons, List.map_nil, hv.2]
  have hu := uniform_mixCircuit feeType u1 u2 u3 u4 u5 feeType a feeType b fee CS.new (newWrong : CS F) rfl
  rw [e] at hu
  cases hcs : mixCircuit feeType u1 u2 u3 u4 u5 (CS.new : CS F) with
  | none => rw [hcs] at hu; cases hu
  | some r =>
    rw [hcs] at hu
    cases hu with
    | some hu =>
    obtain ⟨_, cs⟩ := r
    have hs : cs.shape = cs'.shape := hu.2
    refine ⟨cs, rfl, cs'.value, ?_, h2.2, h3.2, h4.2, h5.2⟩
    have : Sat cs cs'.value (CS.online cs') := by
      simp only [CS.shape, CS.mk.injEq] at hs
      obtain ⟨e1, e2, e3, e4, e5, -⟩ := hs
      unfold Sat
      rw [e1, e3, e5]
      exact s'
    rwa [hon] at this

/-! ### A concrete case -/

/-- two asset types (5 and 9, the fee type), three inputs and two outputs, fee 2 -/
def sampleCS : CS (ZMod 101) :=
  { gates := [], numVars := 13, pubCons := [], pubVars := [], boolIdx := []
    witness := [0, 1, 5, 10, 9, 7, 5, 3, 5, 13, 9, 5, 2] }

/-- the hypotheses of `C51_mixing_complete` are met -/
example : ∃ cs, assetMixing [(2, 3), (4, 5), (6, 7)] [(8, 9), (10, 11)] (9 : ZMod 101) 12 sampleCS = some ((), cs) ∧
    HSat cs := by
  have hv : sampleCS.value = fun i => [0, 1, 5, 10, 9, 7, 5, 3, 5, 13, 9, 5, 2][i]?.getD 0 := rfl
  have h := C51_mixing_complete [(2, 3), (4, 5), (6, 7)] [(8, 9), (10, 11)] (9 : ZMod 101) 2 12 sampleCS.value sampleCS
    ⟨by decide, by decide⟩ ⟨by decide, by decide⟩ (by
      intro p hp
      simp only [List.mem_cons, List.not_mem_nil, or_false] at hp
      rcases hp with rfl | rfl | rfl <;> exact ⟨⟨by decide, rfl⟩, ⟨by decide, rfl⟩⟩) (by
      intro p hp
      simp only [List.mem_cons, List.not_mem_nil, or_false] at hp
      rcases hp with rfl | rfl <;> exact ⟨⟨by decide, rfl⟩, ⟨by decide, rfl⟩⟩)
    ⟨by decide, by decide⟩
    { hasFee := by decide
      outIn := by decide
      inOut := by decide
      balance := by decide +kernel }
  obtain ⟨_, cs, _, e, _, s, _⟩ := h
    { len := rfl, pi := by intro k c v h; simp [sampleCS] at h, nodup := by simp [sampleCS], bool := by simp [sampleCS]
      wit := rfl, wires := by simp [sampleCS], two := by simp [sampleCS] }
    (by intro i g h; simp [sampleCS] at h)
  exact ⟨cs, e, s⟩

end Verif.Anon
