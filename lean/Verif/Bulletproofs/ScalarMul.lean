import Mathlib.AlgebraicGeometry.EllipticCurve.Affine.Point
import Verif.Bulletproofs.R1cs
import Verif.Plonk.Ecc

/-!
C29: the scalar multiplication circuit of crypto/src/bulletproofs/scalar_mul.rs.

The field `F` stands for `Fq` of secp256k1, a point variable is the pair of its coordinates.  `d` is the dummy point derived
from a hash (scalar_mul.rs:77-87) and `pts` the constants `G, 2·G, 4·G, …` (scalar_mul.rs:157-165); both are parameters.  The
number of bits, `FrParameters::MODULUS_BITS = 256`, is the length of `pts`.  The `infinity` flag of `G1Affine` is left out.
-/

namespace Verif.R1cs

open Verif.Plonk (ScalarRepr)

section
variable {F : Type} [Field F]

/-- the constraints of `point_add_constant`, scalar_mul.rs:197-212, for witnesses slope, `x` and `y` -/
def addConstraints (leftVar right : F × F) (w : Option (F × F × F)) : M F (F × F) := do
  let s ← allocate (w.map fun t => t.1)
  let x ← allocate (w.map fun t => t.2.1)
  let y ← allocate (w.map fun t => t.2.2)
  constrain (s * s - leftVar.1 - right.1 - x)
  constrain (s * (right.1 - x) - right.2 - y)
  pure (x, y)

/-- the witnesses of `point_add_constant`, scalar_mul.rs:191-195 -/
def addWitness (left right : F × F) : F × F × F :=
  let s := (left.2 - right.2) * (left.1 - right.1)⁻¹
  let x := s * s - left.1 - right.1
  (s, x, s * (left.1 - x) - left.2)

/-- the sum that `point_add_constant` returns next to the variable, scalar_mul.rs:198.  The code calls the curve's own
addition; where this is reached the abscissas differ, and that addition is the chord formula. -/
def addValue (left : Option (F × F)) (right : F × F) : Option (F × F) := left.map fun l => (addWitness l right).2

/-- the point `point_select` returns next to the variable, scalar_mul.rs:226-229 -/
def selectValue (bit : Option Bool) (yes no : Option (F × F)) : Option (F × F) :=
  match bit with
  | none => none
  | some b => if b then yes else no

/-- the constraints of `point_select`, scalar_mul.rs:237-241 -/
def selectConstraints (bitVar : F) (yesVar noVar : F × F) (w : Option (F × F)) : M F (F × F) := do
  let x ← allocate (w.map Prod.fst)
  let y ← allocate (w.map Prod.snd)
  constrain (x - noVar.1 - bitVar * (yesVar.1 - noVar.1))
  constrain (y - noVar.2 - bitVar * (yesVar.2 - noVar.2))
  pure (x, y)

/-- models `point_select`, scalar_mul.rs:217-244; the prover's `unwrap` panics if the selected point is missing -/
def pointSelect (bitVar : F) (bit : Option Bool) (yesVar : F × F) (yes : Option (F × F)) (noVar : F × F)
    (no : Option (F × F)) : M F (F × F) :=
  match bit with
  | none => selectConstraints bitVar yesVar noVar none
  | some b => match (if b then yes else no) with
    | none => crash
    | some p => selectConstraints bitVar yesVar noVar (some p)

variable [DecidableEq F]

/-- models `point_add_constant`, scalar_mul.rs:184-215; the prover's `inverse().unwrap()` panics for equal abscissas -/
def pointAddConstant (leftVar : F × F) (left : Option (F × F)) (right : F × F) : M F (F × F) :=
  match left with
  | none => addConstraints leftVar right none
  | some l => if l.1 = right.1 then crash else addConstraints leftVar right (some (addWitness l right))

/-- one step of the two bit loops, scalar_mul.rs:117-123 and scalar_mul.rs:133-138 -/
def bitStep (acc : List F) (bit : Option Bool) : M F (List F) := do
  let t ← allocateMultiplier (bit.map fun b => if b then (1, 0) else (0, 1))
  constrain t.2.2
  constrain (t.1 + t.2.1 - 1)
  pure (acc ++ [t.1])

/-- the bits of the secret key, scalar_mul.rs:112-115 and scalar_mul.rs:130-140: `n` little-endian bits -/
def keyBits [ScalarRepr F] (n : Nat) (sk : Option F) : List (Option Bool) :=
  match sk with
  | none => List.replicate n none
  | some k => (List.range n).map fun i => some ((ScalarRepr.val k).testBit i)

/-- the linear combination of scalar_mul.rs:148-153 -/
def bitSum : List F → F → F
  | [], _ => 0
  | b :: bs, m => b * m + bitSum bs (m + m)

/-- the loop of scalar_mul.rs:169-176 over the zipped bits and points -/
def addLoop : List (Option Bool × F) → List (F × F) → Option (F × F) → F × F → M F (F × F)
  | b :: bs, p :: ps, cur, curVar => do
    let nextVar ← pointAddConstant curVar cur p
    let newVar ← pointSelect b.2 b.1 nextVar (addValue cur p) curVar cur
    addLoop bs ps (selectValue b.1 (addValue cur p) cur) newVar
  | _, _, _, curVar => pure curVar

/-- models `ScalarMulProof::gadget`, scalar_mul.rs:67-182.  `pkVar`, `skVar` are the committed values; `pk`, `sk` what the
prover passes. -/
def gadget [ScalarRepr F] (d : F × F) (pts : List (F × F)) (pkVar : F × F) (skVar : F) (pk : Option (F × F)) (sk : Option F) :
    M F Unit :=
  if pk.isSome ≠ sk.isSome then crash
  else do
    let x ← allocate (pk.map fun _ => d.1)
    let y ← allocate (pk.map fun _ => d.2)
    constrain (x - d.1)
    constrain (y - d.2)
    let bits ← forM' (keyBits pts.length sk) bitStep []
    constrain (bitSum bits 1 - skVar)
    let cur ← addLoop ((keyBits pts.length sk).zip bits) pts (pk.map fun _ => d) (x, y)
    let rhs ← pointAddConstant pkVar pk d
    constrain (cur.1 - rhs.1)
    constrain (cur.2 - rhs.2)

/-! ### what the constraints say -/

/-- what `point_add_constant` forces on the result, for some slope `s` -/
def chord (s : F) (l r : F × F) : F × F := (s * s - l.1 - r.1, s * (r.1 - (s * s - l.1 - r.1)) - r.2)

/-- the integer with the given little-endian bits -/
def bitsVal : List Bool → Nat
  | [] => 0
  | b :: bs => b.toNat + 2 * bitsVal bs

/-- a step of the addition loop -/
def walkStep (cur : F × F) (t : Bool × F × F × F) : F × F := if t.1 then chord t.2.1 cur t.2.2 else cur

/-- an assignment seen from outside: bits of the key, one slope per bit, one slope for the public key -/
structure Explains (d : F × F) (pts : List (F × F)) (pk : F × F) (sk : F) (bits : List Bool) (slopes : List F) (σ : F) :
    Prop where
  bits_length : bits.length = pts.length
  slopes_length : slopes.length = pts.length
  key : ((bitsVal bits : Nat) : F) = sk
  walk : (bits.zip (slopes.zip pts)).foldl walkStep d = chord σ pk d

/-- a bit as a field element -/
def bitF (b : Bool) : F := if b then 1 else 0

omit [DecidableEq F] in
theorem bitSum_eq (bits : List Bool) (m : F) : bitSum (bits.map bitF) m = m * ((bitsVal bits : Nat) : F) := by
  induction bits generalizing m with
  | nil => simp [bitSum, bitsVal]
  | cons b bs ih =>
    simp only [List.map_cons, bitSum, bitsVal, ih]
    push_cast
    cases b <;> simp [bitF] <;> ring

omit [DecidableEq F] in
theorem soundR_addConstraints {G : Rand F → Prop} (l r : F × F) (w : Option (F × F × F)) :
    SoundR G (addConstraints l r w) (fun p => ∃ s, p = chord s l r) :=
  SoundR.bind (soundR_allocate _) fun s => SoundR.bind (soundR_allocate _) fun x => SoundR.bind (soundR_allocate _) fun y =>
    SoundR.bind (soundR_constrain _) fun _ => SoundR.bind (soundR_constrain _) fun _ => SoundR.ret fun h2 h1 _ _ _ => by
      refine ⟨s, ?_⟩
      have e1 : x = s * s - l.1 - r.1 := by linear_combination -h1
      subst e1
      have e2 : y = s * (r.1 - (s * s - l.1 - r.1)) - r.2 := by linear_combination -h2
      rw [e2]; rfl

omit [DecidableEq F] in
theorem soundR_selectConstraints {G : Rand F → Prop} (b : F) (yes no : F × F) (w : Option (F × F)) :
    SoundR G (selectConstraints b yes no w)
      (fun p => p = (no.1 + b * (yes.1 - no.1), no.2 + b * (yes.2 - no.2))) :=
  SoundR.bind (soundR_allocate _) fun x => SoundR.bind (soundR_allocate _) fun y =>
    SoundR.bind (soundR_constrain _) fun _ => SoundR.bind (soundR_constrain _) fun _ => SoundR.ret fun h2 h1 _ _ => by
      rw [show x = no.1 + b * (yes.1 - no.1) by linear_combination h1,
        show y = no.2 + b * (yes.2 - no.2) by linear_combination h2]

theorem soundR_bits {G : Rand F → Prop} (n : Nat) :
    SoundR G (forM' (List.replicate n none) bitStep []) (fun l => ∃ bits : List Bool, bits.length = n ∧ l = bits.map bitF) := by
  have := SoundR.forM' (G := G) (f := bitStep (F := F))
    (fun pre (l : List F) => ∃ bits : List Bool, bits.length = pre.length ∧ l = bits.map bitF) (List.replicate n none) [] ?_
  · refine this.cons fun l h => ?_
    obtain ⟨bits, h1, h2⟩ := h ⟨[], rfl, rfl⟩
    exact ⟨bits, by simpa using h1, h2⟩
  · intro pre b acc
    refine SoundR.bind (soundR_allocateMultiplier _) fun t => SoundR.bind (soundR_constrain _) fun _ =>
      SoundR.bind (soundR_constrain _) fun _ => SoundR.ret ?_
    rintro h3 h2 h1 ⟨bits, hl, rfl⟩
    have ht : t.1 = 0 ∨ t.1 = 1 := by
      rw [h1] at h2
      rcases mul_eq_zero.1 h2 with h | h
      · exact Or.inl h
      · right; linear_combination h3 - h
    rcases ht with h | h
    · exact ⟨bits ++ [false], by simp [hl], by simp [h, bitF]⟩
    · exact ⟨bits ++ [true], by simp [hl], by simp [h, bitF]⟩

theorem soundR_addLoop {G : Rand F → Prop} (bs : List F) (pts : List (F × F)) (cur : F × F) :
    SoundR G (addLoop ((List.replicate bs.length none).zip bs) pts none cur) (fun p =>
      ∀ bits : List Bool, bs = bits.map bitF → bits.length = pts.length →
        ∃ slopes : List F, slopes.length = pts.length ∧ p = (bits.zip (slopes.zip pts)).foldl walkStep cur) := by
  induction bs generalizing pts cur with
  | nil =>
    refine SoundR.ret fun bits h1 h2 => ?_
    have : bits = [] := by simpa using h1.symm
    subst this
    exact ⟨[], by simpa using h2, rfl⟩
  | cons b bs ih =>
    cases pts with
    | nil =>
      refine SoundR.ret fun bits h1 h2 => ?_
      have : bits = [] := by simpa using h2
      subst this
      simp at h1
    | cons p pts =>
      rw [List.length_cons, List.replicate_succ, List.zip_cons_cons]
      refine SoundR.bind (soundR_addConstraints cur p none) fun nx =>
        SoundR.bind (soundR_selectConstraints b nx cur none) fun se => (ih pts se).cons ?_
      rintro r h rfl ⟨s, rfl⟩ bits hb hl
      match bits, hb, hl with
      | c :: bits, hb, hl =>
        rw [List.map_cons, List.cons.injEq] at hb
        obtain ⟨slopes, hs, hr⟩ := h bits hb.2 (by simpa using hl)
        refine ⟨s :: slopes, by simp [hs], ?_⟩
        rw [hr, List.zip_cons_cons, List.zip_cons_cons, List.foldl_cons]
        congr 1
        rw [hb.1]
        cases c <;> simp [walkStep, bitF]

omit [DecidableEq F] in
theorem complete_addConstraints (s : F) (l r : F × F) :
    Complete (addConstraints l r (some (s, chord s l r))) (addConstraints l r none) (fun p => p = chord s l r) :=
  Complete.bind (complete_allocate _ _) fun s' hs => Complete.bind (complete_allocate _ _) fun x hx =>
    Complete.bind (complete_allocate _ _) fun y hy => by
      subst hs hx hy
      exact Complete.bind (complete_constrain (by simp [chord])) fun _ _ =>
        Complete.bind (complete_constrain (by simp [chord])) fun _ _ => Complete.ret rfl

omit [DecidableEq F] in
theorem complete_selectConstraints (b : Bool) (yes no : F × F) :
    Complete (selectConstraints (bitF b) yes no (some (if b then yes else no))) (selectConstraints (bitF b) yes no none)
      (fun p => p = if b then yes else no) :=
  Complete.bind (complete_allocate _ _) fun x hx => Complete.bind (complete_allocate _ _) fun y hy => by
    subst hx hy
    refine Complete.bind (complete_constrain ?_) fun _ _ => Complete.bind (complete_constrain ?_) fun _ _ =>
      Complete.ret rfl
    · cases b <;> simp [bitF]
    · cases b <;> simp [bitF]

theorem complete_bits (bits : List Bool) :
    Complete (forM' (bits.map some) (bitStep (F := F)) []) (forM' (List.replicate bits.length none) bitStep [])
      (fun l => l = bits.map bitF) := by
  suffices H : ∀ acc : List F, Complete (forM' (bits.map some) (bitStep (F := F)) acc)
      (forM' (List.replicate bits.length none) bitStep acc) (fun l => l = acc ++ bits.map bitF) from H []
  induction bits with
  | nil => intro acc; exact Complete.ret (by simp)
  | cons b bits ih =>
    intro acc
    rw [List.map_cons, List.length_cons, List.replicate_succ]
    refine Complete.bind (P := fun l => l = acc ++ [bitF b]) ?_ fun l hl => ?_
    · unfold bitStep
      rw [show Option.map (fun b => if b = true then ((1 : F), (0 : F)) else (0, 1)) (some b) = some (bitF b, bitF (!b)) by
        cases b <;> simp [bitF]]
      refine Complete.bind (complete_allocateMultiplier (bitF b) (bitF (!b)) _) fun t ht => ?_
      subst ht
      refine Complete.bind (complete_constrain ?_) fun _ _ => Complete.bind (complete_constrain ?_) fun _ _ => Complete.ret rfl
      · cases b <;> simp [bitF]
      · cases b <;> simp [bitF]
    · subst hl
      exact (ih _).cons fun a ha => by simpa using ha

/-- a prover with slopes of its own choice -/
theorem complete_walk (bits : List Bool) (slopes : List F) (pts : List (F × F)) (cur : F × F)
    (h1 : bits.length = pts.length) (h2 : slopes.length = pts.length) :
    ∃ mp : M F (F × F), Complete mp (addLoop ((List.replicate bits.length none).zip (bits.map bitF)) pts none cur)
      (fun p => p = (bits.zip (slopes.zip pts)).foldl walkStep cur) := by
  induction pts generalizing bits slopes cur with
  | nil =>
    have e1 : bits = [] := by simpa using h1
    have e2 : slopes = [] := by simpa using h2
    subst e1 e2
    exact ⟨_, Complete.ret rfl⟩
  | cons p pts ih =>
    match bits, slopes, h1, h2 with
    | b :: bits, s :: slopes, h1, h2 =>
      obtain ⟨mp, hmp⟩ := ih bits slopes (walkStep cur (b, s, p)) (by simpa using h1) (by simpa using h2)
      refine ⟨addConstraints cur p (some (s, chord s cur p)) >>= fun nx =>
        selectConstraints (bitF b) nx cur (some (if b then nx else cur)) >>= fun _ => mp, ?_⟩
      rw [List.length_cons, List.replicate_succ, List.map_cons, List.zip_cons_cons]
      refine Complete.bind (complete_addConstraints s cur p) fun nx hnx => Complete.bind
        (complete_selectConstraints b nx cur) fun se hse => ?_
      have : se = walkStep cur (b, s, p) := by rw [hse, hnx]; rfl
      rw [this]
      exact hmp

/-! ### C29 -/

variable [ScalarRepr F]

/-- The exact meaning of the verifier's constraints: they can be met for the committed public key `pk` and secret key `sk` if
and only if there are bits that sum to `sk` and slopes, one per bit and one more, that lead from the dummy point to the same
point as the formulas for the last slope.  Nothing relates a slope to the two points it is used for. -/
theorem C29_satisfiable_iff (d : F × F) (pts : List (F × F)) (pk : F × F) (sk : F) :
    (∃ s st, gadget d pts pk sk none none (verifierWith s) = .ok ((), st) ∧ ∀ ch, Satisfied st ch) ↔
      ∃ bits slopes σ, Explains d pts pk sk bits slopes σ := by
  have hg : gadget d pts pk sk none none = (do
      let x ← allocate none
      let y ← allocate none
      constrain (x - d.1)
      constrain (y - d.2)
      let bits ← forM' (List.replicate pts.length none) bitStep []
      constrain (bitSum bits 1 - sk)
      let cur ← addLoop ((List.replicate pts.length none).zip bits) pts none (x, y)
      let rhs ← addConstraints pk d none
      constrain (cur.1 - rhs.1)
      constrain (cur.2 - rhs.2)) := by
    unfold gadget
    rw [if_neg (by simp)]
    rfl
  rw [hg]
  constructor
  · rintro ⟨s, st, hrun, hs⟩
    have hS : SoundR (F := F) (fun _ => True) (do
      let x ← allocate none
      let y ← allocate none
      constrain (x - d.1)
      constrain (y - d.2)
      let bits ← forM' (List.replicate pts.length none) bitStep []
      constrain (bitSum bits 1 - sk)
      let cur ← addLoop ((List.replicate pts.length none).zip bits) pts none (x, y)
      let rhs ← addConstraints pk d none
      constrain (cur.1 - rhs.1)
      constrain (cur.2 - rhs.2)) (fun _ => ∃ bits slopes σ, Explains d pts pk sk bits slopes σ) := by
      refine SoundR.bind (soundR_allocate _) fun x => SoundR.bind (soundR_allocate _) fun y =>
        SoundR.bind (soundR_constrain _) fun _ => SoundR.bind (soundR_constrain _) fun _ =>
        SoundR.bind (soundR_bits _) fun bs => SoundR.bind (soundR_constrain _) fun _ => ?_
      have hloop : SoundR (F := F) (fun _ => True) (addLoop ((List.replicate pts.length none).zip bs) pts none (x, y)) (fun p =>
          ∀ bits : List Bool, bs = bits.map bitF → bits.length = pts.length →
            ∃ slopes : List F, slopes.length = pts.length ∧ p = (bits.zip (slopes.zip pts)).foldl walkStep (x, y)) := by
        by_cases hl : bs.length = pts.length
        · rw [← hl]
          simpa only [hl] using soundR_addLoop (G := fun _ => True) bs pts (x, y)
        · have hrep : (List.replicate pts.length (none : Option Bool)).zip bs =
              (List.replicate (bs.take pts.length).length none).zip (bs.take pts.length) := by
            rw [List.length_take]
            by_cases h : pts.length ≤ bs.length
            · rw [Nat.min_eq_left h]
              conv_lhs => rw [← List.take_append_drop pts.length bs]
              rw [show List.replicate pts.length (none : Option Bool) = List.replicate pts.length none ++ [] by simp,
                List.zip_append (by simp [h])]
              simp
            · rw [Nat.min_eq_right (by omega), List.take_of_length_le (by omega)]
              conv_lhs => rw [show pts.length = bs.length + (pts.length - bs.length) by omega, List.replicate_add,
                show bs = bs ++ [] by simp]
              rw [List.zip_append (by simp)]
              simp
          rw [hrep]
          refine (soundR_addLoop (G := fun _ => True) _ pts (x, y)).cons fun p hp bits hb hbl => ?_
          exact absurd (by rw [hb]; simpa using hbl) hl
      refine SoundR.bind hloop fun cur => SoundR.bind (soundR_addConstraints _ _ _) fun rhs =>
        SoundR.bind (soundR_constrain _) fun _ => (soundR_constrain _).cons ?_
      rintro _ h2 h1 ⟨σ, rfl⟩ hw hk ⟨bits, hl, rfl⟩ hy hx _ _
      obtain ⟨slopes, hsl, hcur⟩ := hw bits rfl hl
      refine ⟨bits, slopes, σ, hl, hsl, ?_, ?_⟩
      · rw [bitSum_eq, one_mul] at hk
        exact sub_eq_zero.1 hk
      · rw [show (x, y) = d by rw [sub_eq_zero.1 hx, sub_eq_zero.1 hy]] at hcur
        rw [← hcur]
        exact Prod.ext (sub_eq_zero.1 h1) (sub_eq_zero.1 h2)
    obtain ⟨A, B, hA, hB, h⟩ := hS _ _ _ hrun
    simp only [verifierWith, List.nil_append] at hA
    exact h (by rw [← hA]; exact (hs fun _ => (0, 0, 0)).1) fun _ _ => trivial
  · rintro ⟨bits, slopes, σ, hb, hs, hk, hw⟩
    obtain ⟨mp, hmp⟩ := complete_walk bits slopes pts d hb hs
    suffices H : ∃ mp : M F Unit, Complete mp (do
      let x ← allocate none
      let y ← allocate none
      constrain (x - d.1)
      constrain (y - d.2)
      let bits ← forM' (List.replicate pts.length none) bitStep []
      constrain (bitSum bits 1 - sk)
      let cur ← addLoop ((List.replicate pts.length none).zip bits) pts none (x, y)
      let rhs ← addConstraints pk d none
      constrain (cur.1 - rhs.1)
      constrain (cur.2 - rhs.2)) (fun _ => True) by
      obtain ⟨mp, H⟩ := H
      obtain ⟨_, stp, stv, -, h, -, -, hs⟩ := H.satisfied
      exact ⟨_, stv, h, fun ch => (hs ch).2⟩
    refine ⟨(do
      let x ← allocate (some d.1)
      let y ← allocate (some d.2)
      constrain (x - d.1)
      constrain (y - d.2)
      let bits ← forM' (bits.map some) bitStep []
      constrain (bitSum bits 1 - sk)
      let cur ← mp
      let rhs ← addConstraints pk d (some (σ, chord σ pk d))
      constrain (cur.1 - rhs.1)
      constrain (cur.2 - rhs.2)), ?_⟩
    refine Complete.bind (complete_allocate _ _) fun x hx => Complete.bind (complete_allocate _ _) fun y hy => ?_
    subst hx hy
    refine Complete.bind (complete_constrain (by simp)) fun _ _ => Complete.bind (complete_constrain (by simp)) fun _ _ => ?_
    rw [← hb]
    refine Complete.bind (complete_bits bits) fun bs hbs => ?_
    subst hbs
    refine Complete.bind (complete_constrain (by rw [bitSum_eq, one_mul, hk, sub_self])) fun _ _ => ?_
    refine Complete.bind hmp fun cur hcur => Complete.bind (complete_addConstraints σ pk d) fun rhs hrhs => ?_
    rw [hw] at hcur
    subst hcur hrhs
    exact Complete.bind (complete_constrain (by simp)) fun _ _ => complete_constrain (by simp)

/-- C29 fails: the second coordinate of the public key occurs in no constraint. -/
theorem C29_public_key_y_unused (d : F × F) (pts : List (F × F)) (x y y' : F) (sk : F) :
    gadget d pts (x, y) sk none none = gadget d pts (x, y') sk none none := rfl

omit [ScalarRepr F] [DecidableEq F] in
/-- the point of the last bit that is set -/
def lastPoint : List Bool → List (F × F) → Option (F × F)
  | b :: bits, p :: pts => match lastPoint bits pts with
    | some q => some q
    | none => if b then some p else none
  | _, _ => none

omit [ScalarRepr F] [DecidableEq F] in
theorem walk_zero (bits : List Bool) (pts : List (F × F)) (hl : bits.length = pts.length) (hc : bits.count true = 0)
    (cur : F × F) : lastPoint bits pts = none ∧
      ∃ slopes : List F, slopes.length = pts.length ∧ (bits.zip (slopes.zip pts)).foldl walkStep cur = cur := by
  induction bits generalizing pts cur with
  | nil => exact ⟨rfl, List.replicate pts.length 0, by simp, rfl⟩
  | cons b bits ih =>
    match pts, hl with
    | p :: pts, hl =>
      cases b with
      | true => simp at hc
      | false =>
        obtain ⟨h1, slopes, h2, h3⟩ := ih pts (by simpa using hl) (by simpa using hc) cur
        exact ⟨by simp [lastPoint, h1], 0 :: slopes, by simp [h2], by
          rw [List.zip_cons_cons, List.zip_cons_cons, List.foldl_cons]; exact h3⟩

omit [ScalarRepr F] [DecidableEq F] in
theorem walk_one (bits : List Bool) (pts : List (F × F)) (hl : bits.length = pts.length) (hc : bits.count true = 1)
    (t : F × F) (ht : ∀ p, lastPoint bits pts = some p → p.1 ≠ t.1) :
    ∃ x0, ∀ cur : F × F, cur.1 = x0 →
      ∃ slopes : List F, slopes.length = pts.length ∧ (bits.zip (slopes.zip pts)).foldl walkStep cur = t := by
  induction bits generalizing pts with
  | nil => simp at hc
  | cons b bits ih =>
    match pts, hl with
    | p :: pts, hl =>
      cases b with
      | true =>
        have hc' : bits.count true = 0 := by simpa using hc
        have hp : p.1 - t.1 ≠ 0 := sub_ne_zero.2 (ht p (by simp [lastPoint, (walk_zero bits pts (by simpa using hl) hc' t).1]))
        refine ⟨((t.2 + p.2) / (p.1 - t.1)) ^ 2 - p.1 - t.1, fun cur hcur => ?_⟩
        generalize hs : (t.2 + p.2) / (p.1 - t.1) = s at hcur
        have hs' : s * (p.1 - t.1) = t.2 + p.2 := by rw [← hs]; field_simp
        obtain ⟨-, slopes, h2, h3⟩ := walk_zero bits pts (by simpa using hl) hc' (walkStep cur (true, s, p))
        refine ⟨s :: slopes, by simp [h2], ?_⟩
        rw [List.zip_cons_cons, List.zip_cons_cons, List.foldl_cons, h3]
        have e : s * s - cur.1 - p.1 = t.1 := by rw [hcur]; ring
        simp only [walkStep, if_true, chord, e]
        exact Prod.ext rfl (by simp only; linear_combination hs')
      | false =>
        obtain ⟨x0, h⟩ := ih pts (by simpa using hl) (by simpa using hc) (fun q hq => ht q (by simp [lastPoint, hq]))
        refine ⟨x0, fun cur hcur => ?_⟩
        obtain ⟨slopes, h2, h3⟩ := h cur hcur
        exact ⟨0 :: slopes, by simp [h2], by rw [List.zip_cons_cons, List.zip_cons_cons, List.foldl_cons]; exact h3⟩

omit [ScalarRepr F] [DecidableEq F] in
theorem lastPoint_of_pos (b : Bool) (bits : List Bool) (p : F × F) (pts : List (F × F)) (hl : bits.length = pts.length)
    (hc : 0 < bits.count true) : lastPoint (b :: bits) (p :: pts) = lastPoint bits pts := by
  have : ∃ q, lastPoint bits pts = some q := by
    induction bits generalizing pts with
    | nil => simp at hc
    | cons c bits ih =>
      match pts, hl with
      | q :: pts, hl =>
        by_cases h : 0 < bits.count true
        · obtain ⟨q', h'⟩ := ih pts (by simpa using hl) h
          exact ⟨q', by simp [lastPoint, h']⟩
        · cases c with
          | false => exact absurd (by simpa using hc) h
          | true => exact ⟨q, by simp [lastPoint, (walk_zero bits pts (by simpa using hl) (by omega) q).1]⟩
  obtain ⟨q, hq⟩ := this
  simp [lastPoint, hq]

omit [ScalarRepr F] [DecidableEq F] in
theorem walk_two (bits : List Bool) (pts : List (F × F)) (hl : bits.length = pts.length) (hc : bits.count true = 2)
    (t : F × F) (ht : ∀ p, lastPoint bits pts = some p → p.1 ≠ t.1) :
    ∃ K, ∀ (cur : F × F) (s : F), s * s = K + cur.1 →
      ∃ slopes : List F, slopes.length = pts.length ∧ (bits.zip (slopes.zip pts)).foldl walkStep cur = t := by
  induction bits generalizing pts with
  | nil => simp at hc
  | cons b bits ih =>
    match pts, hl with
    | p :: pts, hl =>
      cases b with
      | true =>
        have hc' : bits.count true = 1 := by simpa using hc
        rw [lastPoint_of_pos true bits p pts (by simpa using hl) (by omega)] at ht
        obtain ⟨x0, h⟩ := walk_one bits pts (by simpa using hl) hc' t ht
        refine ⟨x0 + p.1, fun cur s hs => ?_⟩
        obtain ⟨slopes, h2, h3⟩ := h (walkStep cur (true, s, p)) (by
          simp only [walkStep, if_true, chord]; linear_combination hs)
        exact ⟨s :: slopes, by simp [h2], by rw [List.zip_cons_cons, List.zip_cons_cons, List.foldl_cons]; exact h3⟩
      | false =>
        rw [lastPoint_of_pos false bits p pts (by simpa using hl) (by simp at hc; omega)] at ht
        obtain ⟨K, h⟩ := ih pts (by simpa using hl) (by simpa using hc) ht
        refine ⟨K, fun cur s hs => ?_⟩
        obtain ⟨slopes, h2, h3⟩ := h cur s hs
        exact ⟨0 :: slopes, by simp [h2], by rw [List.zip_cons_cons, List.zip_cons_cons, List.foldl_cons]; exact h3⟩

omit [ScalarRepr F] [DecidableEq F] in
theorem walk_three (htwo : (2 : F) ≠ 0) (bits : List Bool) (pts : List (F × F)) (hl : bits.length = pts.length)
    (hc : 3 ≤ bits.count true) (t : F × F) (ht : ∀ p, lastPoint bits pts = some p → p.1 ≠ t.1) (cur : F × F) :
    ∃ slopes : List F, slopes.length = pts.length ∧ (bits.zip (slopes.zip pts)).foldl walkStep cur = t := by
  induction bits generalizing pts cur with
  | nil => simp at hc
  | cons b bits ih =>
    match pts, hl with
    | p :: pts, hl =>
      by_cases h3 : 3 ≤ bits.count true
      · rw [lastPoint_of_pos b bits p pts (by simpa using hl) (by omega)] at ht
        obtain ⟨slopes, h2, h3⟩ := ih pts (by simpa using hl) h3 ht (walkStep cur (b, 0, p))
        exact ⟨0 :: slopes, by simp [h2], by rw [List.zip_cons_cons, List.zip_cons_cons, List.foldl_cons]; exact h3⟩
      · cases b with
        | false => exact absurd (by simpa using hc) h3
        | true =>
          have hc' : bits.count true = 2 := by simp at hc; omega
          rw [lastPoint_of_pos true bits p pts (by simpa using hl) (by omega)] at ht
          obtain ⟨K, h⟩ := walk_two bits pts (by simpa using hl) hc' t ht
          obtain ⟨slopes, h2, h3⟩ := h (walkStep cur (true, (K - cur.1 - p.1 - 1) / 2, p)) ((K - cur.1 - p.1 + 1) / 2) (by
            simp only [walkStep, if_true, chord]; field_simp; ring)
          exact ⟨_ :: slopes, by simp [h2], by rw [List.zip_cons_cons, List.zip_cons_cons, List.foldl_cons]; exact h3⟩

/-- C29 fails: a secret key with three or more bits set can be combined with *any* pair of coordinates as public key, on the
curve or not; the verifier's constraints have a satisfying assignment. -/
theorem C29_anything_provable (htwo : (2 : F) ≠ 0) (d : F × F) (pts : List (F × F)) (pk : F × F) (bits : List Bool)
    (hl : bits.length = pts.length) (hc : 3 ≤ bits.count true) :
    ∃ s st, gadget d pts pk ((bitsVal bits : Nat) : F) none none (verifierWith s) = .ok ((), st) ∧
      ∀ ch, Satisfied st ch := by
  rw [C29_satisfiable_iff]
  have hσ : ∃ σ : F, ∀ p, lastPoint bits pts = some p → p.1 ≠ (chord σ pk d).1 := by
    by_cases h0 : ∀ p, lastPoint bits pts = some p → p.1 ≠ (chord 0 pk d).1
    · exact ⟨0, h0⟩
    · refine ⟨1, fun p hp h1 => h0 fun q hq h => ?_⟩
      rw [hp, Option.some.injEq] at hq
      subst hq
      simp only [chord] at h h1
      have : (1 : F) = 0 := by linear_combination h - h1
      exact one_ne_zero this
  obtain ⟨σ, hσ⟩ := hσ
  obtain ⟨slopes, h1, h2⟩ := walk_three htwo bits pts hl hc _ hσ d
  exact ⟨bits, slopes, σ, hl, h1, rfl, h2⟩

/-! ### with honest slopes -/

/-- every slope that is used is the slope of the line through two points with different abscissas -/
def ChordSlopes : F × F → List (Bool × F × F × F) → Prop
  | _, [] => True
  | cur, t :: ts => (t.1 = true → cur.1 ≠ t.2.2.1 ∧ t.2.1 * (cur.1 - t.2.2.1) = cur.2 - t.2.2.2) ∧
    ChordSlopes (walkStep cur t) ts

/-- the finite point `P` has the coordinates `c` -/
def At {W : WeierstrassCurve.Affine F} (P : W.Point) (c : F × F) : Prop := ∃ h, P = .some c.1 c.2 h

/-- the list holds the coordinates of `G, 2·G, 4·G, …` -/
def Doublings {W : WeierstrassCurve.Affine F} (G : W.Point) (pts : List (F × F)) : Prop :=
  ∀ i (h : i < pts.length), At (2 ^ i • G) pts[i]

omit [ScalarRepr F] in
theorem At.unique {W : WeierstrassCurve.Affine F} {P Q : W.Point} {c : F × F} (h1 : At P c) (h2 : At Q c) : P = Q := by
  obtain ⟨h, rfl⟩ := h1
  obtain ⟨h', rfl⟩ := h2
  rfl

omit [ScalarRepr F] in
theorem At.add {W : WeierstrassCurve.Affine F} (h1 : W.a₁ = 0) (h2 : W.a₂ = 0) (h3 : W.a₃ = 0) {L R : W.Point}
    {l r : F × F} (hL : At L l) (hR : At R r) (hx : l.1 ≠ r.1) (s : F) (hs : s * (l.1 - r.1) = l.2 - r.2) :
    At (L + R) (chord s l r) := by
  obtain ⟨hl, rfl⟩ := hL
  obtain ⟨hr, rfl⟩ := hR
  have hslope : W.slope r.1 l.1 r.2 l.2 = s := by
    rw [WeierstrassCurve.Affine.slope_of_X_ne (Ne.symm hx), div_eq_iff (sub_ne_zero.2 (Ne.symm hx))]
    linear_combination hs
  have hX : W.addX r.1 l.1 s = (chord s l r).1 := by
    simp only [WeierstrassCurve.Affine.addX, chord, h1, h2]; ring
  have hY : W.addY r.1 l.1 r.2 s = (chord s l r).2 := by
    simp only [WeierstrassCurve.Affine.addY, WeierstrassCurve.Affine.negY, WeierstrassCurve.Affine.negAddY, hX, h1, h3]
    simp only [chord]; ring
  have hn := WeierstrassCurve.Affine.nonsingular_add hr hl (fun hxy => hx hxy.1.symm)
  refine ⟨?_, ?_⟩
  · rw [hslope, hX, hY] at hn; exact hn
  · rw [add_comm, WeierstrassCurve.Affine.Point.add_of_X_ne (Ne.symm hx)]
    simp only [WeierstrassCurve.Affine.Point.some.injEq]
    rw [hslope, hX, hY]
    exact ⟨rfl, rfl⟩

omit [ScalarRepr F] in
theorem doublings_tail {W : WeierstrassCurve.Affine F} {G : W.Point} {p : F × F} {pts : List (F × F)}
    (h : Doublings G (p :: pts)) : At G p ∧ Doublings (2 • G) pts := by
  refine ⟨?_, fun i hi => ?_⟩
  · have := h 0 (by simp)
    rw [pow_zero, one_smul] at this
    exact this
  have := h (i + 1) (by simpa using hi)
  rw [pow_succ, mul_smul] at this
  exact this

omit [ScalarRepr F] in
theorem walk_group {W : WeierstrassCurve.Affine F} (h1 : W.a₁ = 0) (h2 : W.a₂ = 0) (h3 : W.a₃ = 0)
    (bits : List Bool) (slopes : List F) (pts : List (F × F)) (hb : bits.length = pts.length)
    (hs : slopes.length = pts.length) (C G : W.Point) (cur : F × F) (hC : At C cur) (hG : Doublings G pts)
    (hsl : ChordSlopes cur (bits.zip (slopes.zip pts))) :
    At (C + bitsVal bits • G) ((bits.zip (slopes.zip pts)).foldl walkStep cur) := by
  induction bits generalizing slopes pts C G cur with
  | nil => simpa [bitsVal] using hC
  | cons b bits ih =>
    cases pts with
    | nil => simp at hb
    | cons p pts =>
     cases slopes with
     | nil => simp at hs
     | cons s slopes =>
      rw [List.zip_cons_cons, List.zip_cons_cons] at hsl ⊢
      rw [List.foldl_cons]
      obtain ⟨hG0, hG'⟩ := doublings_tail hG
      have hstep : At (C + b.toNat • G) (walkStep cur (b, s, p)) := by
        cases b with
        | false => simpa [walkStep] using hC
        | true =>
          obtain ⟨hx, hsl'⟩ := hsl.1 rfl
          simpa [walkStep] using At.add h1 h2 h3 hC hG0 hx s hsl'
      have := ih slopes pts (by simpa using hb) (by simpa using hs) _ _ _ hstep hG' hsl.2
      rw [bitsVal, add_smul, mul_comm, mul_smul, ← add_assoc]
      exact this

/-- C29, for curves `y² = x³ + a·x + b`: if the verifier's constraints are met, the bits of the assignment sum to the secret
key, and *if moreover* the assigned slopes are the slopes of the lines they stand for, then the public key is that multiple of
`G`.  Missing for the full claim: the circuit does not constrain the slopes, and the claim is false, see
`C29_anything_provable`. -/
theorem C29_scalar_mul_partial {W : WeierstrassCurve.Affine F} (h1 : W.a₁ = 0) (h2 : W.a₂ = 0) (h3 : W.a₃ = 0)
    (D G PK : W.Point) (d : F × F) (pts : List (F × F)) (pk : F × F) (sk : F) (hD : At D d) (hG : Doublings G pts)
    (hPK : At PK pk) (s : List F) (st : St F)
    (hrun : gadget d pts pk sk none none (verifierWith s) = .ok ((), st)) (hsat : ∀ ch, Satisfied st ch) :
    ∃ bits slopes σ, Explains d pts pk sk bits slopes σ ∧ bitsVal bits < 2 ^ pts.length ∧
      (ChordSlopes d (bits.zip (slopes.zip pts)) → pk.1 ≠ d.1 → σ * (pk.1 - d.1) = pk.2 - d.2 →
        PK = bitsVal bits • G) := by
  obtain ⟨bits, slopes, σ, hE⟩ := (C29_satisfiable_iff d pts pk sk).1 ⟨s, st, hrun, hsat⟩
  refine ⟨bits, slopes, σ, hE, ?_, fun hsl hx hσ => ?_⟩
  · rw [← hE.bits_length]
    clear hE
    induction bits with
    | nil => simp [bitsVal]
    | cons b bits ih =>
      rw [bitsVal, List.length_cons, pow_succ]
      cases b <;> simp <;> omega
  · have e1 := walk_group h1 h2 h3 bits slopes pts hE.bits_length hE.slopes_length D G d hD hG hsl
    rw [hE.walk] at e1
    have e2 := At.add h1 h2 h3 hPK hD hx σ hσ
    have e3 := e1.unique e2
    rw [add_comm] at e3
    exact (add_right_cancel e3).symm

/-! ### the honest prover -/

/-- the honest slope -/
def slopeOf (l r : F × F) : F := (l.2 - r.2) * (l.1 - r.1)⁻¹

omit [ScalarRepr F] [DecidableEq F] in
theorem slopeOf_mul {l r : F × F} (h : l.1 ≠ r.1) : slopeOf l r * (l.1 - r.1) = l.2 - r.2 := by
  rw [slopeOf, mul_assoc, inv_mul_cancel₀ (sub_ne_zero.2 h), mul_one]

omit [ScalarRepr F] [DecidableEq F] in
theorem addWitness_eq {l r : F × F} (h : l.1 ≠ r.1) : addWitness l r = (slopeOf l r, chord (slopeOf l r) l r) := by
  have := slopeOf_mul h
  unfold addWitness chord
  rw [← slopeOf]
  refine Prod.ext rfl (Prod.ext rfl ?_)
  simp only
  linear_combination this

omit [ScalarRepr F] in
theorem complete_add_honest {l r : F × F} (h : l.1 ≠ r.1) :
    Complete (pointAddConstant l (some l) r) (pointAddConstant l none r) (fun p => p = chord (slopeOf l r) l r) := by
  unfold pointAddConstant
  simp only
  rw [if_neg h, addWitness_eq h]
  exact complete_addConstraints _ _ _

omit [ScalarRepr F] in
theorem complete_loop_honest {W : WeierstrassCurve.Affine F} (h1 : W.a₁ = 0) (h2 : W.a₂ = 0) (h3 : W.a₃ = 0)
    (bits : List Bool) (pts : List (F × F)) (hb : bits.length = pts.length) (C G : W.Point) (cur : F × F) (hC : At C cur)
    (hG : Doublings G pts)
    (hx : ∀ i (hi : i < pts.length), ∀ c, At (C + (bitsVal (bits.take i)) • G) c → c.1 ≠ (pts[i]).1) :
    Complete (addLoop ((bits.map some).zip (bits.map bitF)) pts (some cur) cur)
      (addLoop ((List.replicate bits.length none).zip (bits.map bitF)) pts none cur)
      (fun p => At (C + bitsVal bits • G) p) := by
  induction bits generalizing pts C G cur with
  | nil => exact Complete.ret (by simpa [bitsVal] using hC)
  | cons b bits ih =>
    match pts, hb with
    | p :: pts, hb =>
      obtain ⟨hG0, hG'⟩ := doublings_tail hG
      have hne : cur.1 ≠ p.1 := hx 0 (by simp) cur (by simpa [bitsVal] using hC)
      have hnx := At.add h1 h2 h3 hC hG0 hne _ (slopeOf_mul hne)
      have hval : addValue (some cur) p = some (chord (slopeOf cur p) cur p) := by
        simp [addValue, addWitness_eq hne]
      rw [List.map_cons, List.map_cons, List.zip_cons_cons, List.length_cons, List.replicate_succ, List.zip_cons_cons]
      refine Complete.bind (complete_add_honest hne) fun nx hn => ?_
      rw [hval]
      subst hn
      generalize hN : chord (slopeOf cur p) cur p = nx at hnx ⊢
      have hsel : pointSelect (bitF b) (some b) nx (some nx) cur (some cur) =
          selectConstraints (bitF b) nx cur (some (if b then nx else cur)) := by
        cases b <;> rfl
      have hsv : selectValue (some b) (some nx) (some cur) = some (if b then nx else cur) := by
        cases b <;> rfl
      simp only [hsel, hsv]
      refine Complete.bind (complete_selectConstraints b nx cur) fun se hse => ?_
      rw [← hse]
      have hat : At (C + b.toNat • G) se := by
        rw [hse]
        cases b with
        | false => simpa using hC
        | true => simpa using hnx
      refine (ih pts (by simpa using hb) _ (2 • G) se hat hG' ?_).cons fun q hq => ?_
      · intro i hi c hc
        refine hx (i + 1) (by simpa using hi) c ?_
        rw [List.take_succ_cons, bitsVal, add_smul, mul_comm, mul_smul, ← add_assoc]
        exact hc
      · rw [bitsVal, add_smul, mul_comm, mul_smul, ← add_assoc]
        exact hq

/-- the `n` low bits of a number -/
def lowBits (n k : Nat) : List Bool := (List.range n).map fun i => k.testBit i

theorem lowBits_succ (n k : Nat) : lowBits (n + 1) k = k.testBit 0 :: lowBits n (k / 2) := by
  unfold lowBits
  rw [List.range_succ_eq_map, List.map_cons, List.map_map]
  congr 1
  refine List.map_congr_left fun i _ => ?_
  simp [Nat.testBit_succ]

theorem bitsVal_lowBits (n k : Nat) : bitsVal (lowBits n k) = k % 2 ^ n := by
  induction n generalizing k with
  | zero => simp [lowBits, bitsVal, Nat.mod_one]
  | succ n ih =>
    rw [lowBits_succ, bitsVal, ih, pow_succ, mul_comm (2 ^ n) 2, Nat.mod_mul, Nat.testBit_zero]
    congr 1
    rcases Nat.mod_two_eq_zero_or_one k with h | h <;> simp [h]

theorem take_lowBits (n i k : Nat) (h : i ≤ n) : (lowBits n k).take i = lowBits i k := by
  unfold lowBits
  rw [← List.map_take, List.take_range, Nat.min_eq_left h]

/-- C29 (completeness): for the public key `k·G` of a secret key `k` below `2^256` the prover's run succeeds, and with the
values it assigns all constraints of the verifier hold, provided that the partial sums `D + (k mod 2^i)·G` are finite and have
abscissas different from that of `2^i·G`, and the public key has one different from that of the dummy point `D`; otherwise
the prover divides by zero and panics. -/
theorem C29_honest_complete {W : WeierstrassCurve.Affine F} (h1 : W.a₁ = 0) (h2 : W.a₂ = 0) (h3 : W.a₃ = 0)
    (D G PK : W.Point) (d : F × F) (pts : List (F × F)) (pk : F × F) (sk : F) (hD : At D d) (hG : Doublings G pts)
    (hPK : At PK pk) (hk : ScalarRepr.val sk < 2 ^ pts.length) (hpk : PK = ScalarRepr.val sk • G)
    (hx : ∀ i (hi : i < pts.length), ∀ c, At (D + (ScalarRepr.val sk % 2 ^ i) • G) c → c.1 ≠ (pts[i]).1)
    (hxd : pk.1 ≠ d.1) :
    ∃ stp stv, gadget d pts pk sk (some pk) (some sk) proverStart = .ok ((), stp) ∧
      gadget d pts pk sk none none (verifierWith stp.allocs) = .ok ((), stv) ∧
      ∀ ch, Satisfied stp ch ∧ Satisfied stv ch := by
  generalize hkv : ScalarRepr.val sk = k at *
  have hlen : (lowBits pts.length k).length = pts.length := by simp [lowBits]
  have hval : bitsVal (lowBits pts.length k) = k := by rw [bitsVal_lowBits, Nat.mod_eq_of_lt hk]
  have hkey : keyBits pts.length (some sk) = (lowBits pts.length k).map some := by
    simp [keyBits, lowBits, hkv]
  have hkey' : keyBits pts.length (none : Option F) = List.replicate (lowBits pts.length k).length none := by
    simp [keyBits, hlen]
  suffices H : Complete (gadget d pts pk sk (some pk) (some sk)) (gadget d pts pk sk none none) (fun _ => True) by
    obtain ⟨_, stp, stv, a, b, -, -, c⟩ := H.satisfied
    exact ⟨stp, stv, a, b, c⟩
  unfold gadget
  simp only [Option.isSome_some, Option.isSome_none, ne_eq, not_true_eq_false, if_false, hkey, hkey', Option.map_some,
    Option.map_none]
  refine Complete.bind (complete_allocate _ _) fun x hx' => Complete.bind (complete_allocate _ _) fun y hy => ?_
  subst hx' hy
  refine Complete.bind (complete_constrain (by simp)) fun _ _ => Complete.bind (complete_constrain (by simp)) fun _ _ => ?_
  refine Complete.bind (complete_bits _) fun bs hbs => ?_
  subst hbs
  refine Complete.bind (complete_constrain ?_) fun _ _ => ?_
  · rw [bitSum_eq, one_mul, hval, ← hkv, ScalarRepr.cast_val, sub_self]
  refine Complete.bind (complete_loop_honest h1 h2 h3 _ pts hlen D G d hD hG ?_) fun cur hcur => ?_
  · intro i hi c hc
    rw [take_lowBits _ _ _ (by omega), bitsVal_lowBits] at hc
    exact hx i hi c hc
  refine Complete.bind (complete_add_honest hxd) fun rhs hrhs => ?_
  have hr := At.add h1 h2 h3 hPK hD hxd _ (slopeOf_mul hxd)
  rw [← hrhs, hpk, add_comm] at hr
  rw [hval] at hcur
  have he : cur = rhs := by
    obtain ⟨_, e1⟩ := hcur
    obtain ⟨_, e2⟩ := hr
    rw [e1, WeierstrassCurve.Affine.Point.some.injEq] at e2
    exact Prod.ext e2.1 e2.2
  subst he
  exact Complete.bind (complete_constrain (by simp)) fun _ _ => complete_constrain (by simp)

end

/-! ### the hypotheses are met -/

/-- the curve `y² = x³ + 7` over a small field -/
def smallCurve : WeierstrassCurve.Affine (ZMod 101) := { a₁ := 0, a₂ := 0, a₃ := 0, a₄ := 0, a₆ := 7 }

theorem smallCurve_at (x y : ZMod 101) (he : y ^ 2 = x ^ 3 + 7) (hy : y ≠ -y) : smallCurve.Nonsingular x y := by
  rw [WeierstrassCurve.Affine.nonsingular_iff, WeierstrassCurve.Affine.equation_iff]
  refine ⟨by simp [smallCurve, he], Or.inr ?_⟩
  simpa [smallCurve] using hy

/-- the doubling of `(4, 24)` -/
theorem small_double : (2 : Nat) • (WeierstrassCurve.Affine.Point.some 4 24 (smallCurve_at 4 24 (by decide) (by decide))) =
    WeierstrassCurve.Affine.Point.some 94 88 (smallCurve_at 94 88 (by decide) (by decide)) := by
  have hy : (24 : ZMod 101) ≠ smallCurve.negY 4 24 := by
    simp only [WeierstrassCurve.Affine.negY, smallCurve]; decide
  have hs : smallCurve.slope 4 4 24 24 = 1 := by
    rw [WeierstrassCurve.Affine.slope_of_Y_ne rfl hy, div_eq_iff (by
      simp only [WeierstrassCurve.Affine.negY, smallCurve]; decide)]
    simp only [WeierstrassCurve.Affine.negY, smallCurve]; decide
  rw [two_smul, WeierstrassCurve.Affine.Point.add_self_of_Y_ne hy]
  simp only [WeierstrassCurve.Affine.Point.some.injEq]
  rw [hs]
  constructor
  · simp only [WeierstrassCurve.Affine.addX, smallCurve]; decide
  · simp only [WeierstrassCurve.Affine.addY, WeierstrassCurve.Affine.negY, WeierstrassCurve.Affine.negAddY,
      WeierstrassCurve.Affine.addX, smallCurve]; decide

theorem small_doublings : Doublings (W := smallCurve)
    (.some 4 24 (smallCurve_at 4 24 (by decide) (by decide))) [(4, 24), (94, 88)] := by
  intro i hi
  match i, hi with
  | 0, _ => exact ⟨_, by rw [pow_zero, one_smul]; rfl⟩
  | 1, _ => exact ⟨_, by rw [pow_one, small_double]; rfl⟩

/-- the honest prover with secret key 2 -/
example : ∃ stp stv, gadget (F := ZMod 101) (5, 43) [(4, 24), (94, 88)] (94, 88) 2 (some (94, 88)) (some 2) proverStart =
      .ok ((), stp) ∧
    gadget (F := ZMod 101) (5, 43) [(4, 24), (94, 88)] (94, 88) 2 none none (verifierWith stp.allocs) = .ok ((), stv) ∧
    ∀ ch, Satisfied stp ch ∧ Satisfied stv ch := by
  refine C29_honest_complete (W := smallCurve) rfl rfl rfl
    (.some 5 43 (smallCurve_at 5 43 (by decide) (by decide))) _ _ _ _ _ 2 ⟨_, rfl⟩ small_doublings ⟨_, small_double⟩ ?_ ?_
    ?_ (by decide)
  · decide
  · rfl
  · intro i hi c hc
    have hv : ScalarRepr.val (2 : ZMod 101) = 2 := rfl
    rw [hv] at hc
    match i, hi with
    | 0, _ =>
      rw [pow_zero, Nat.mod_one, zero_smul, add_zero] at hc
      obtain ⟨_, e⟩ := hc
      rw [WeierstrassCurve.Affine.Point.some.injEq] at e
      rw [← e.1]
      show (5 : ZMod 101) ≠ 4
      decide
    | 1, _ =>
      rw [pow_one, Nat.mod_self, zero_smul, add_zero] at hc
      obtain ⟨_, e⟩ := hc
      rw [WeierstrassCurve.Affine.Point.some.injEq] at e
      rw [← e.1]
      show (5 : ZMod 101) ≠ 94
      decide

/-- the secret key 7 with a public key that is not even on the curve -/
example : ∃ s st, gadget (F := ZMod 101) (5, 43) [(4, 24), (94, 88), (12, 34)] (1, 1) 7 none none (verifierWith s) =
      .ok ((), st) ∧ ∀ ch, Satisfied st ch := by
  have := C29_anything_provable (F := ZMod 101) (by decide) (5, 43) [(4, 24), (94, 88), (12, 34)] (1, 1)
    [true, true, true] rfl (by decide)
  exact this

end Verif.R1cs
