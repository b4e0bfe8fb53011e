import Verif.Setup.Model
import Verif.Anon.ConvertGen
import Verif.Snark.Helpers

/-!
C88: the parameters that are written to files are read back, serve every statement of their kind, and verify the same proofs as
the parameters they were made from.
-/

namespace Verif.Setup

open Verif.Poly Verif.Plonk Verif.Snark Verif.Anon
open Verif.AnonCreds (Pairing)

/-! ### Bytes of a commitment key -/

theorem slice_mid (a s t : Bytes) (i j : Nat) (hi : i = a.length) (hj : j = a.length + s.length) :
    Codec.slice (a ++ s ++ t) i j = .ok s := by
  subst hi hj
  rw [Codec.slice, if_pos ⟨by omega, by simp only [List.length_append]; omega⟩]
  congr 1
  rw [List.append_assoc, List.drop_left, Nat.add_sub_cancel_left, List.take_left]

theorem slice_rest (a s : Bytes) (i j : Nat) (hi : i = a.length) (hj : j = (a ++ s).length) :
    Codec.slice (a ++ s) i j = .ok s := by
  have := slice_mid a s [] i j hi (by rw [hj, List.length_append])
  rwa [List.append_nil] at this

theorem flatMap_length {G : Type} {R : Raw G} (L : R.Laws) (l : List G) : (l.flatMap R.ser).length = R.size * l.length := by
  induction l with
  | nil => simp
  | cons g l ih => rw [List.flatMap_cons, List.length_append, L.len, ih, List.length_cons]; ring

theorem readPoints_ser {G : Type} {R : Raw G} (L : R.Laws) (start : Nat) : ∀ (l : List G) (a t : Bytes) (i : Nat),
    a.length = start + R.size * i → readPoints R (a ++ l.flatMap R.ser ++ t) start i l.length = .ok l := by
  intro l
  induction l with
  | nil => intro a t i _; rfl
  | cons g l ih =>
    intro a t i ha
    rw [List.length_cons, readPoints, List.flatMap_cons]
    have h1 : a ++ (R.ser g ++ l.flatMap R.ser) ++ t = a ++ R.ser g ++ (l.flatMap R.ser ++ t) := by simp
    have h2 : a ++ (R.ser g ++ l.flatMap R.ser) ++ t = (a ++ R.ser g) ++ l.flatMap R.ser ++ t := by simp
    have h3 : start + R.size * (i + 1) = a.length + (R.ser g).length := by rw [ha, L.len]; ring
    have hs := slice_mid a (R.ser g) (l.flatMap R.ser ++ t) (start + R.size * i) (start + R.size * (i + 1)) ha.symm h3
    have hr := ih (a ++ R.ser g) t (i + 1) (by rw [List.length_append, h3])
    rw [h1, hs, Res.bind_ok, L.de_ser, Res.ofOption_some, Res.bind_ok, ← h1, h2, hr, Res.bind_ok]
    rfl

section
variable {F G1 G2 Gt : Type}

/-- C88: a commitment key of fewer than `2^32` elements is read back from its bytes, whatever follows them. -/
theorem C88_key_roundtrip {R1 : Raw G1} {R2 : Raw G2} (L1 : R1.Laws) (L2 : R2.Laws) (pp : Params G1 G2)
    (h1 : pp.group1.length < 2 ^ 32) (h2 : pp.group2.length < 2 ^ 32) (t : Bytes) :
    fromUnchecked R1 R2 (toUnchecked R1 R2 pp ++ t) = .ok pp := by
  obtain ⟨g1, g2⟩ := pp
  simp only at h1 h2
  generalize hb : toUnchecked R1 R2 ⟨g1, g2⟩ ++ t = b
  have hb' : leBytes 4 g1.length ++ leBytes 4 g2.length ++ g1.flatMap R1.ser ++ g2.flatMap R2.ser ++ t = b := hb
  have hl : b.length = 8 + R1.size * g1.length + R2.size * g2.length + t.length := by
    rw [← hb']; simp only [List.length_append, leBytes_length, flatMap_length L1, flatMap_length L2]
  have s1 : Codec.slice b 0 4 = .ok (leBytes 4 g1.length) := by
    have := slice_mid [] (leBytes 4 g1.length) (leBytes 4 g2.length ++ g1.flatMap R1.ser ++ g2.flatMap R2.ser ++ t) 0 4 rfl (by simp)
    rw [← this, ← hb']; simp
  have s2 : Codec.slice b 4 8 = .ok (leBytes 4 g2.length) := by
    have := slice_mid (leBytes 4 g1.length) (leBytes 4 g2.length) (g1.flatMap R1.ser ++ g2.flatMap R2.ser ++ t) 4 8 (by simp) (by simp)
    rw [← this, ← hb']; simp
  have s3 : Codec.slice b 8 b.length = .ok (g1.flatMap R1.ser ++ (g2.flatMap R2.ser ++ t)) := by
    have e : b = (leBytes 4 g1.length ++ leBytes 4 g2.length) ++ (g1.flatMap R1.ser ++ (g2.flatMap R2.ser ++ t)) := by
      rw [← hb']; simp
    have := slice_rest (leBytes 4 g1.length ++ leBytes 4 g2.length) (g1.flatMap R1.ser ++ (g2.flatMap R2.ser ++ t)) 8 b.length
      (by simp) (by rw [e])
    rwa [← e] at this
  have s4 : Codec.slice b (8 + R1.size * g1.length) b.length = .ok (g2.flatMap R2.ser ++ t) := by
    have e : b = (leBytes 4 g1.length ++ leBytes 4 g2.length ++ g1.flatMap R1.ser) ++ (g2.flatMap R2.ser ++ t) := by
      rw [← hb']; simp
    have := slice_rest (leBytes 4 g1.length ++ leBytes 4 g2.length ++ g1.flatMap R1.ser) (g2.flatMap R2.ser ++ t)
      (8 + R1.size * g1.length) b.length (by simp only [List.length_append, leBytes_length, flatMap_length L1]) (by rw [e])
    rwa [← e] at this
  have r1 := readPoints_ser L1 0 g1 [] (g2.flatMap R2.ser ++ t) 0 (by simp)
  have r2 := readPoints_ser L2 0 g2 [] t 0 (by simp)
  rw [List.nil_append] at r1 r2
  rw [fromUnchecked, if_neg (by omega), s1, Res.bind_ok, s2, Res.bind_ok, s3, Res.bind_ok,
    ofLE_leBytes_of_lt (by simpa using h1), ofLE_leBytes_of_lt (by simpa using h2), s4, Res.bind_ok, r1, Res.bind_ok, r2]
  rfl

theorem readPoints_length {G : Type} (R : Raw G) (b : Bytes) (start : Nat) : ∀ (count i : Nat) (l : List G),
    readPoints R b start i count = .ok l → l.length = count ∧ (count ≠ 0 → start + R.size * (i + count) ≤ b.length) := by
  intro count
  induction count with
  | zero =>
    intro i l h
    rw [readPoints] at h
    exact ⟨by rw [← Res.ok.inj h]; rfl, fun h => absurd rfl h⟩
  | succ n ih =>
    intro i l h
    rw [readPoints] at h
    obtain ⟨s, hs, h⟩ := Res.bind_eq_ok.mp h
    obtain ⟨q, _, h⟩ := Res.bind_eq_ok.mp h
    obtain ⟨qs, hq, h⟩ := Res.bind_eq_ok.mp h
    obtain ⟨e1, e2⟩ := ih (i + 1) qs hq
    refine ⟨by rw [← Res.ok.inj h, List.length_cons, e1], fun _ => ?_⟩
    have hb : start + R.size * (i + 1) ≤ b.length := by
      rw [Codec.slice] at hs
      split at hs
      · next hc => exact hc.2
      · cases hs
    by_cases hn : n = 0
    · subst hn; simpa using hb
    · have := e2 hn
      rwa [show i + (n + 1) = i + 1 + n from by omega]

theorem readPoints_no_panic {G : Type} (R : Raw G) (b : Bytes) (start : Nat) : ∀ (count i : Nat),
    start + R.size * (i + count) ≤ b.length → readPoints R b start i count ≠ .panic := by
  intro count
  induction count with
  | zero => intro i _ h; rw [readPoints] at h; cases h
  | succ n ih =>
    intro i hb h
    have hb1 : start + R.size * (i + 1 + n) ≤ b.length := by rwa [show i + 1 + n = i + (n + 1) from by omega]
    have hle : R.size * i ≤ R.size * (i + 1) := Nat.mul_le_mul_left _ (by omega)
    have hle2 : R.size * (i + 1) ≤ R.size * (i + (n + 1)) := Nat.mul_le_mul_left _ (by omega)
    rw [readPoints, Codec.slice, if_pos ⟨by omega, by omega⟩, Res.bind_ok] at h
    cases hd : R.de ((b.drop (start + R.size * i)).take (start + R.size * (i + 1) - (start + R.size * i))) with
    | none => rw [hd] at h; cases h
    | some q =>
      rw [hd, Res.ofOption_some, Res.bind_ok] at h
      cases hr : readPoints R b start (i + 1) n with
      | ok l => rw [hr] at h; cases h
      | err => rw [hr] at h; cases h
      | panic => exact ih (i + 1) hb1 hr

/-- C88: what is read has the announced numbers of elements, and the file was long enough for them. -/
theorem C88_key_lengths (R1 : Raw G1) (R2 : Raw G2) (b : Bytes) (pp : Params G1 G2) (h : fromUnchecked R1 R2 b = .ok pp) :
    pp.group1.length = ofLE (b.take 4) ∧ pp.group2.length = ofLE ((b.drop 4).take 4) ∧
      8 + R1.size * pp.group1.length + R2.size * pp.group2.length ≤ b.length := by
  rw [fromUnchecked] at h
  split at h
  · cases h
  next hb =>
  rw [Codec.slice, if_pos ⟨by omega, by omega⟩, Res.bind_ok, Codec.slice, if_pos ⟨by omega, by omega⟩, Res.bind_ok,
    Codec.slice, if_pos ⟨by omega, le_refl _⟩, Res.bind_ok] at h
  obtain ⟨b2, h2, h⟩ := Res.bind_eq_ok.mp h
  obtain ⟨p1, hp1, h⟩ := Res.bind_eq_ok.mp h
  obtain ⟨p2, hp2, h⟩ := Res.bind_eq_ok.mp h
  obtain ⟨e1, f1⟩ := readPoints_length _ _ _ _ _ _ hp1
  obtain ⟨e2, f2⟩ := readPoints_length _ _ _ _ _ _ hp2
  obtain rfl := Res.ok.inj h
  simp only [List.drop_zero, Nat.sub_zero] at e1 h2 f1
  rw [← e1] at h2
  rw [Codec.slice] at h2
  split at h2
  swap
  · cases h2
  next hc =>
  obtain rfl := Res.ok.inj h2
  refine ⟨e1, e2, ?_⟩
  simp only
  by_cases hz : p2.length = 0
  · rw [hz]; omega
  · have := f2 (by rw [← e2]; exact hz)
    rw [← e2] at this
    simp only [List.length_take, List.length_drop] at this
    simp only [Nat.zero_add] at this
    omega

/-- C88, the part that holds: a file of fewer than eight bytes is an error, and a file with room for the announced elements is
read or is an error. -/
theorem C88_key_no_panic_partial (R1 : Raw G1) (R2 : Raw G2) (b : Bytes)
    (h : b.length < 8 ∨ 8 + R1.size * ofLE (b.take 4) + R2.size * ofLE ((b.drop 4).take 4) ≤ b.length) :
    fromUnchecked R1 R2 b ≠ .panic := by
  rw [fromUnchecked]
  split
  · intro h; cases h
  next hb =>
  have h := h.resolve_left hb
  rw [Codec.slice, if_pos ⟨by omega, by omega⟩, Res.bind_ok, Codec.slice, if_pos ⟨by omega, by omega⟩, Res.bind_ok,
    Codec.slice, if_pos ⟨by omega, le_refl _⟩, Res.bind_ok]
  simp only [List.drop_zero, Nat.sub_zero, Nat.reduceSub]
  rw [Codec.slice, if_pos ⟨by omega, le_refl _⟩, Res.bind_ok]
  have n1 := readPoints_no_panic R1 ((b.drop 8).take (b.length - 8)) 0 (ofLE (b.take 4)) 0 (by
    simp only [List.length_take, List.length_drop, Nat.zero_add]; omega)
  have n2 := readPoints_no_panic R2 ((b.drop (8 + R1.size * ofLE (b.take 4))).take (b.length - (8 + R1.size * ofLE (b.take 4)))) 0
    (ofLE ((b.drop 4).take 4)) 0 (by simp only [List.length_take, List.length_drop, Nat.zero_add]; omega)
  cases h1 : readPoints R1 ((b.drop 8).take (b.length - 8)) 0 0 (ofLE (b.take 4)) with
  | panic => exact absurd h1 n1
  | err => intro h; cases h
  | ok p1 =>
    rw [Res.bind_ok]
    cases h2 : readPoints R2 ((b.drop (8 + R1.size * ofLE (b.take 4))).take (b.length - (8 + R1.size * ofLE (b.take 4)))) 0 0
      (ofLE ((b.drop 4).take 4)) with
    | panic => exact absurd h2 n2
    | err => intro h; cases h
    | ok p2 => intro h; cases h

/-- C88, violated: a file with a complete header that ends before the announced elements of the first group do makes the reader
panic, where the declared type promises an error. -/
theorem C88_key_panics_violated (R1 : Raw G1) (R2 : Raw G2) (b : Bytes) (h8 : 8 ≤ b.length)
    (h : b.length < 8 + R1.size * ofLE (b.take 4)) : fromUnchecked R1 R2 b = .panic := by
  rw [fromUnchecked, if_neg (by omega), Codec.slice, if_pos ⟨by omega, by omega⟩, Res.bind_ok, Codec.slice,
    if_pos ⟨by omega, by omega⟩, Res.bind_ok, Codec.slice, if_pos ⟨by omega, le_refl _⟩, Res.bind_ok]
  simp only [List.drop_zero, Nat.sub_zero]
  rw [Codec.slice, if_neg (by omega), Res.bind_panic]

/-- C88: the Lagrange bases of a size are those in its file; other sizes have none. -/
theorem C88_lagrange {R1 : Raw G1} (L1 : R1.Laws) (bases : Nat → Option Bytes) (size : Nat) :
    (bases size = none → loadLagrange (G2 := G2) R1 bases size = .ok none) ∧
    ∀ (l : List G1) (t : Bytes), l.length < 2 ^ 32 → bases size = some (leBytes 4 l.length ++ l.flatMap R1.ser ++ t) →
      loadLagrange (G2 := G2) R1 bases size = .ok (some ⟨l, []⟩) := by
  refine ⟨fun h => by rw [loadLagrange, h], fun l t hl h => ?_⟩
  have s1 := slice_mid [] (leBytes 4 l.length) (l.flatMap R1.ser ++ t) 0 4 rfl (by simp)
  rw [List.nil_append, ← List.append_assoc] at s1
  have r1 := readPoints_ser L1 4 l (leBytes 4 l.length) t 0 (by simp)
  rw [loadLagrange, h]
  simp only [s1, Res.bind_ok, ofLE_leBytes_of_lt (show l.length < 256 ^ 4 by simpa using hl), r1]

/-! ### Parameters cut down for verifiers -/

/-- C88: cutting down keeps the verifying key and the size of the system, and what is left is refused by the prover. -/
theorem C88_shrink_keeps (v w : VerifierParams F G1 G2) (h : v.shrink = .ok w) :
    w.vk = v.vk ∧ w.cs.size = v.cs.size ∧ w.cs.verifierOnly = true ∧ Poly.shrink v.pcs = .ok w.pcs := by
  rw [VerifierParams.shrink] at h
  obtain ⟨pcs, hp, h⟩ := Res.bind_eq_ok.mp h
  obtain rfl := Res.ok.inj h
  refine ⟨rfl, ?_, ?_, hp⟩ <;> cases v.cs <;> rfl

variable [Field F] [DecidableEq F] [AddCommGroup G1] [AddCommGroup G2] [Module F G1] [Module F G2] [AddCommGroup Gt] [Module F Gt]
  [DecidableEq Gt]

omit [DecidableEq F] in
theorem batchVerify_shrink (P : Pairing F G1 G2 Gt) {pp pp' : Params G1 G2} (h : Poly.shrink pp = .ok pp') (cms : List G1)
    (xs vs : List F) (pfs : List G1) (u : F) :
    batchVerifyDiffPoints P pp' cms xs vs pfs u = batchVerifyDiffPoints P pp cms xs vs pfs u := by
  rw [Poly.shrink] at h
  split at h
  · next g10 g20 g21 e1 e2 e3 =>
    obtain rfl := Res.ok.inj h
    rw [batchVerifyDiffPoints, batchVerifyDiffPoints, e1, e2, e3]
    rfl
  · cases h

/-- C88: parameters cut down for verifiers accept, refuse and panic on the same proofs. -/
theorem C88_shrink_verifies (v w : VerifierParams F G1 G2) (h : v.shrink = .ok w) {n : Nat} (hv : v.cs.size = n) (hw : w.cs.size = n)
    (O : Oracle F G1 n) (P : Pairing F G1 G2 Gt) (tr : Tr F G1) (pi : List F) (proof : Snark.Proof G1 F) :
    w.verify hw O P tr pi proof = v.verify hv O P tr pi proof := by
  obtain ⟨e1, -, -, e2⟩ := C88_shrink_keeps v w h
  unfold VerifierParams.verify verifier verifierWith
  simp only [e1, batchVerify_shrink P e2]

/-! ### Files -/

omit [DecidableEq F] [AddCommGroup G1] [AddCommGroup G2] [Module F G1] [Module F G2] [Field F] in
theorem mapM_get {α β : Type} (f : α → Res β) : ∀ (l : List α) (r : List β), l.mapM f = .ok r →
    ∀ (i : Nat) (a : α), l[i]? = some a → ∃ b, f a = .ok b ∧ r[i]? = some b := by
  intro l
  induction l with
  | nil => intro r _ i a h; simp at h
  | cons x l ih =>
    intro r h i a ha
    rw [List.mapM_cons] at h
    obtain ⟨b, hb, h⟩ := Res.bind_eq_ok.mp h
    obtain ⟨bs, hbs, h⟩ := Res.bind_eq_ok.mp h
    obtain rfl := Res.ok.inj h
    cases i with
    | zero => simp only [List.getElem?_cons_zero, Option.some.injEq] at ha; subst ha; exact ⟨b, hb, rfl⟩
    | succ i => exact ih bs hbs i a (by simpa using ha)

omit [Field F] [DecidableEq F] [AddCommGroup G1] [AddCommGroup G2] [Module F G1] [Module F G2] in
theorem unwrapRes_ok {α : Type} {x : Res α} {a : α} (h : unwrapRes x = .ok a) : x = .ok a := by
  cases x with
  | ok b => exact h
  | err => cases h
  | panic => cases h

/-- all parameters have the commitment key of the reference string -/
theorem create_pcs (E : Env F G1 G2) (circuit : Nat → Nat → Nat → Option (CS F)) (i j : Nat) (d : Option Nat)
    (v : VerifierParams F G1 G2) (h : E.create circuit i j d = .ok v) :
    ∃ srs, E.srs = some srs ∧ fromUnchecked E.raw1 E.raw2 srs = .ok v.pcs := by
  rw [Env.create] at h
  obtain ⟨q, hq, h⟩ := Res.bind_eq_ok.mp h
  rw [Env.proverFirst] at hq
  cases hs : E.srs with
  | none => rw [hs] at hq; cases hq
  | some srs =>
    rw [hs, Res.ofOption_some, Res.bind_ok] at hq
    obtain ⟨cs, -, hq⟩ := Res.bind_eq_ok.mp hq
    rw [Env.finish] at hq
    obtain ⟨pcs, hp, hq⟩ := Res.bind_eq_ok.mp hq
    obtain ⟨lag, -, hq⟩ := Res.bind_eq_ok.mp hq
    obtain ⟨pk, -, hq⟩ := Res.bind_eq_ok.mp hq
    obtain rfl := Res.ok.inj hq
    obtain rfl := Res.ok.inj h
    exact ⟨srs, rfl, hp⟩

theorem unwrap_ok {α : Type} {x : Option α} {a : α} (h : Res.unwrap x = .ok a) : x = some a := by
  cases x with
  | none => cases h
  | some b => exact congrArg some (Res.ok.inj h)

/-- C88: from the files written by `gen_transfer_vk` the loader gives, for one to six inputs and one to six outputs, exactly the
parameters for these numbers, cut down for verifiers; it does not matter what the loader would build without files. -/
theorem C88_load (E E' : Env F G1 G2) (B : FileBins F G1 G2) (hc : B.common.Lawful) (hs : B.specific.Lawful) (ht : B.table.Lawful)
    (circuit circuit' : Nat → Nat → Nat → Option (CS F)) (common specific : Bytes)
    (hgen : E.genTransfer B circuit = .ok (common, specific)) (payers payees : Nat) (h1 : 1 ≤ payers) (h2 : payers ≤ 6)
    (h3 : 1 ≤ payees) (h4 : payees ≤ 6) :
    ∃ v w, E.create circuit payers payees (some 20) = .ok v ∧ v.shrink = .ok w ∧
      E'.load B circuit' (some common) (some specific) payers payees = .ok w := by
  rw [Env.genTransfer] at hgen
  obtain ⟨v0, hv0, hgen⟩ := Res.bind_eq_ok.mp hgen
  obtain ⟨⟨pcs0, sp0⟩, hsp0, hgen⟩ := Res.bind_eq_ok.mp hgen
  obtain ⟨table, htab, hgen⟩ := Res.bind_eq_ok.mp hgen
  obtain ⟨file1, hf1, hgen⟩ := Res.bind_eq_ok.mp hgen
  obtain ⟨file2, hf2, hgen⟩ := Res.bind_eq_ok.mp hgen
  simp only [Res.pure_eq, Res.ok.injEq, Prod.mk.injEq] at hgen
  obtain ⟨rfl, rfl⟩ := hgen
  have hf1 := unwrap_ok hf1
  have hf2 := unwrap_ok hf2
  obtain ⟨i, rfl⟩ := Nat.exists_eq_add_of_le' h1
  obtain ⟨j, rfl⟩ := Nat.exists_eq_add_of_le' h3
  have hr : ∀ k, k + 1 ≤ 6 → (List.range' 1 maxRecords)[k]? = some (k + 1) := by
    intro k hk
    rw [List.getElem?_range' (by simp only [maxRecords]; omega)]
    congr 1
    omega
  obtain ⟨row, hrow, hrow'⟩ := mapM_get _ _ _ htab i (i + 1) (hr i h2)
  obtain ⟨cell, hcell, hcell'⟩ := mapM_get _ _ _ hrow j (j + 1) (hr j h4)
  obtain ⟨v, hv, hcell⟩ := Res.bind_eq_ok.mp hcell
  obtain ⟨⟨pcs, sp⟩, hsp, hcell⟩ := Res.bind_eq_ok.mp hcell
  have hwritten : B.specific.ser sp = some cell := unwrap_ok hcell
  clear hcell
  have hv := unwrapRes_ok hv
  have hv0 := unwrapRes_ok hv0
  have hsp := unwrapRes_ok hsp
  have hsp0 := unwrapRes_ok hsp0
  obtain ⟨srs, es, ep⟩ := create_pcs E circuit _ _ _ v hv
  obtain ⟨srs', es', ep'⟩ := create_pcs E circuit _ _ _ v0 hv0
  obtain rfl : srs = srs' := Option.some.inj (es.symm.trans es')
  have epc : v.pcs = v0.pcs := Res.ok.inj (ep.symm.trans ep')
  rw [VerifierParams.split] at hsp hsp0
  obtain ⟨q, hq, hsp⟩ := Res.bind_eq_ok.mp hsp
  obtain ⟨q0, hq0, hsp0⟩ := Res.bind_eq_ok.mp hsp0
  simp only [Res.pure_eq, Res.ok.injEq, Prod.mk.injEq] at hsp hsp0
  obtain ⟨rfl, rfl⟩ := hsp
  obtain ⟨rfl, rfl⟩ := hsp0
  obtain rfl : q = q0 := Res.ok.inj (hq.symm.trans ((congrArg Poly.shrink epc).trans hq0))
  refine ⟨v, ⟨q, v.cs.shrink, v.vk⟩, hv, ?_, ?_⟩
  · rw [VerifierParams.shrink, hq]; rfl
  · rw [Env.load, if_neg (by simp only [maxRecords]; omega)]
    simp only [hc q _ hf1, ht table _ hf2, Res.ofOption_some, Res.unwrap_some, Res.bind_ok, indexBefore, hrow', hcell',
      hs ⟨v.cs.shrink, v.vk⟩ _ hwritten]
    rfl

/-- C88: without files the loader gives the full parameters, made with the depth of the tree. -/
theorem C88_load_without_files (E : Env F G1 G2) (B : FileBins F G1 G2) (circuit : Nat → Nat → Nat → Option (CS F))
    (common specific : Option Bytes) (hf : common = none ∨ specific = none) (payers payees : Nat) (h1 : payers ≤ 6) (h2 : payees ≤ 6) :
    E.load B circuit common specific payers payees = E.create circuit payers payees (some 20) := by
  unfold Env.load
  rw [if_neg (by simp only [maxRecords]; omega)]
  rcases hf with rfl | rfl
  · rfl
  · cases common <;> rfl

/-- C88: more than six inputs or outputs are an error, whatever the files. -/
theorem C88_load_limits (E : Env F G1 G2) (B : FileBins F G1 G2) (circuit : Nat → Nat → Nat → Option (CS F))
    (common specific : Option Bytes) (payers payees : Nat) (h : 6 < payers ∨ 6 < payees) :
    E.load B circuit common specific payers payees = .err := by
  unfold Env.load
  rw [if_pos (by simp only [maxRecords]; omega)]

/-- C88, violated: asked for no inputs or no outputs, the loader panics on the files of `gen_transfer_vk`, where more than six give
an error. -/
theorem C88_load_zero_violated (E E' : Env F G1 G2) (B : FileBins F G1 G2) (hc : B.common.Lawful) (ht : B.table.Lawful)
    (circuit circuit' : Nat → Nat → Nat → Option (CS F)) (common specific : Bytes)
    (hgen : E.genTransfer B circuit = .ok (common, specific)) (payers payees : Nat) (h2 : payers ≤ 6) (h4 : payees ≤ 6)
    (h : payers = 0 ∨ payees = 0) : E'.load B circuit' (some common) (some specific) payers payees = .panic := by
  rw [Env.genTransfer] at hgen
  obtain ⟨v0, hv0, hgen⟩ := Res.bind_eq_ok.mp hgen
  obtain ⟨⟨pcs0, sp0⟩, hsp0, hgen⟩ := Res.bind_eq_ok.mp hgen
  obtain ⟨table, htab, hgen⟩ := Res.bind_eq_ok.mp hgen
  obtain ⟨file1, hf1, hgen⟩ := Res.bind_eq_ok.mp hgen
  obtain ⟨file2, hf2, hgen⟩ := Res.bind_eq_ok.mp hgen
  simp only [Res.pure_eq, Res.ok.injEq, Prod.mk.injEq] at hgen
  obtain ⟨rfl, rfl⟩ := hgen
  have hf1 := unwrap_ok hf1
  have hf2 := unwrap_ok hf2
  unfold Env.load
  rw [if_neg (by simp only [maxRecords]; omega)]
  simp only [hc pcs0 _ hf1, ht table _ hf2, Res.ofOption_some, Res.unwrap_some, Res.bind_ok]
  cases payers with
  | zero => rfl
  | succ i =>
    obtain rfl : payees = 0 := by omega
    simp only [indexBefore]
    cases table[i]? <;> rfl

/-- C88: `gen_transfer_vk` writes its files when the parameters for all numbers can be made. -/
theorem genTransfer_ok (E : Env F G1 G2) (B : FileBins F G1 G2) (hB : B.Writes) (circuit : Nat → Nat → Nat → Option (CS F))
    (v : Nat → Nat → VerifierParams F G1 G2) (h : ∀ i j, 1 ≤ i → i ≤ 6 → 1 ≤ j → j ≤ 6 → E.create circuit i j (some 20) = .ok (v i j))
    (pcs : Params G1 G2) (hp : Poly.shrink (v 1 1).pcs = .ok pcs) (hf : keyFits pcs)
    (hs : ∀ i j, 1 ≤ i → i ≤ 6 → 1 ≤ j → j ≤ 6 → Specific.Fits ⟨(v i j).cs.shrink, (v i j).vk⟩) :
    ∃ files, E.genTransfer B circuit = .ok files := by
  have hpc : ∀ i j, 1 ≤ i → i ≤ 6 → 1 ≤ j → j ≤ 6 → (v i j).split = .ok (pcs, ⟨(v i j).cs.shrink, (v i j).vk⟩) := by
    intro i j a b c d
    obtain ⟨srs, es, ep⟩ := create_pcs E circuit _ _ _ _ (h i j a b c d)
    obtain ⟨srs', es', ep'⟩ := create_pcs E circuit _ _ _ _ (h 1 1 (by omega) (by omega) (by omega) (by omega))
    obtain rfl : srs = srs' := Option.some.inj (es.symm.trans es')
    have epc : (v i j).pcs = (v 1 1).pcs := Res.ok.inj (ep.symm.trans ep')
    rw [VerifierParams.split, epc, hp]
    rfl
  have hcell : ∀ i j, ∃ b, 1 ≤ i → i ≤ 6 → 1 ≤ j → j ≤ 6 →
      B.specific.ser ⟨(v i j).cs.shrink, (v i j).vk⟩ = some b ∧ b.length < 2 ^ 64 := by
    intro i j
    by_cases hij : (1 ≤ i ∧ i ≤ 6) ∧ 1 ≤ j ∧ j ≤ 6
    · obtain ⟨b, hb⟩ := hB.specific _ (hs i j hij.1.1 hij.1.2 hij.2.1 hij.2.2)
      exact ⟨b, fun _ _ _ _ => hb⟩
    · exact ⟨[], fun a b c d => absurd ⟨⟨a, b⟩, c, d⟩ hij⟩
  choose cell hcell using hcell
  have hm : ∀ i, 1 ≤ i → i ≤ 6 → (List.range' 1 maxRecords).mapM (fun j => do
      let v ← unwrapRes (E.create circuit i j (some treeDepth))
      let (_, special) ← unwrapRes v.split
      Res.unwrap (B.specific.ser special)) = .ok ((List.range' 1 maxRecords).map (cell i)) := by
    intro i a b
    apply mapM_ok
    intro j hj
    rw [List.mem_range'_1] at hj
    simp only [maxRecords] at hj
    rw [show treeDepth = 20 from rfl, h i j a b (by omega) (by omega)]
    simp only [unwrapRes, Res.bind_ok, hpc i j a b (by omega) (by omega), (hcell i j a b (by omega) (by omega)).1, Res.unwrap_some]
  obtain ⟨file1, hf1⟩ := hB.common pcs hf
  obtain ⟨file2, hf2⟩ := hB.table ((List.range' 1 maxRecords).map fun i => (List.range' 1 maxRecords).map (cell i))
    (by simp [maxRecords]) (by
      intro row hrow
      obtain ⟨i, hi, rfl⟩ := List.mem_map.mp hrow
      refine ⟨by simp [maxRecords], fun b hb => ?_⟩
      obtain ⟨j, hj, rfl⟩ := List.mem_map.mp hb
      rw [List.mem_range'_1] at hi hj
      simp only [maxRecords] at hi hj
      exact (hcell i j (by omega) (by omega) (by omega) (by omega)).2)
  refine ⟨(file1, file2), ?_⟩
  rw [Env.genTransfer, show treeDepth = 20 from rfl, h 1 1 (by omega) (by omega) (by omega) (by omega)]
  simp only [unwrapRes, Res.bind_ok, hpc 1 1 (by omega) (by omega) (by omega) (by omega)]
  rw [mapM_ok _ (fun i => (List.range' 1 maxRecords).map (cell i)) _ (fun i hi => by
    rw [List.mem_range'_1] at hi
    simp only [maxRecords] at hi
    exact hm i (by omega) (by omega)), Res.bind_ok, hf1, hf2]
  rfl

omit [Field F] [DecidableEq F] [AddCommGroup G1] [AddCommGroup G2] [Module F G1] [Module F G2] in
/-- C88: the file of a conversion is read back as the parameters of the conversion, cut down for verifiers. -/
theorem C88_conversion_file (B : Bin (VerifierParams F G1 G2)) (hB : B.Lawful) (q q' : Res (ProverParams F G1 G2)) (file : Bytes)
    (h : genConversion B q = .ok file) :
    ∃ par w, q = .ok par ∧ (VerifierParams.ofProver par).shrink = .ok w ∧ loadConversion B (some file) q' = .ok w := by
  rw [genConversion] at h
  obtain ⟨par, hp, h⟩ := Res.bind_eq_ok.mp h
  obtain ⟨w, hw, h⟩ := Res.bind_eq_ok.mp h
  refine ⟨par, w, unwrapRes_ok hp, unwrapRes_ok hw, ?_⟩
  rw [loadConversion, hB w file (unwrap_ok h)]
  rfl

omit [Field F] [DecidableEq F] [AddCommGroup G1] [AddCommGroup G2] [Module F G1] [Module F G2] in
/-- C88: Without the file the parameters are made anew, and cut down they are those of the file; if they cannot be made, the error is
passed on. -/
theorem C88_conversion_rebuilt (B : Bin (VerifierParams F G1 G2)) (hB : B.Lawful) (q : Res (ProverParams F G1 G2)) :
    (∀ file, genConversion B q = .ok file → ∃ v w, loadConversion B none q = .ok v ∧ v.shrink = .ok w ∧ loadConversion B (some file) .err = .ok w) ∧
    (q = .err → loadConversion B none q = .err) := by
  refine ⟨fun file h => ?_, fun h => by rw [h]; rfl⟩
  obtain ⟨par, w, rfl, hw, hl⟩ := C88_conversion_file B hB q .err file h
  exact ⟨_, w, rfl, hw, hl⟩

end

/-! ### One key for every statement -/

section
variable {F G1 G2 : Type} [Field F] [DecidableEq F] [AddCommGroup G1] [AddCommGroup G2] [Module F G1] [Module F G2]

/-- the keys depend on a system only through its gates, wires and indices -/
theorem indexer_shape (msm : List F → List G1 → Res G1) (pp : Params G1 G2) (lag : Option (Params G1 G2)) (rootOf : Nat → Res (Option F))
    (k : List F) {cs cs' : CS F} (h : cs.shape = cs'.shape) : indexer msm pp lag rootOf k cs = indexer msm pp lag rootOf k cs' := by
  obtain ⟨a, b, c, d, e, w⟩ := cs
  obtain ⟨a', b', c', d', e', w'⟩ := cs'
  simp only [CS.shape, CS.mk.injEq, and_true] at h
  obtain ⟨rfl, rfl, rfl, rfl, rfl⟩ := h
  rfl

/-- two systems for which all parameters and keys are the same -/
def SameKeys (cs cs' : CS F) : Prop :=
  cs.shape = cs'.shape ∧ cs.gates.length = cs'.gates.length ∧
    ∀ (G1 G2 : Type) [AddCommGroup G1] [AddCommGroup G2] [Module F G1] [Module F G2] (msm : List F → List G1 → Res G1)
      (pp : Params G1 G2) (lag : Option (Params G1 G2)) (rootOf : Nat → Res (Option F)) (k : List F),
      indexer msm pp lag rootOf k cs = indexer msm pp lag rootOf k cs'

theorem sameKeys_of_shape {cs cs' : CS F} (h : cs.shape = cs'.shape) : SameKeys cs cs' :=
  ⟨h, by have := congrArg (fun c : CS F => c.gates.length) h; exact this, fun _ _ _ _ _ _ msm pp lag rootOf k => indexer_shape msm pp lag rootOf k h⟩

theorem uniform_some {α : Type} {ρ : α → α → Prop} {m n : Build F α} (h : Uniform ρ m n) {a : α} {cs : CS F}
    (hm : m CS.new = some (a, cs)) : ∃ cs0, (n CS.new).map (·.2) = some cs0 ∧ SameKeys cs cs0 := by
  have := h CS.new CS.new rfl
  rw [hm] at this
  cases hn : n CS.new with
  | none => rw [hn] at this; cases this
  | some r =>
    rw [hn] at this
    cases this with
    | some h => exact ⟨r.2, rfl, sameKeys_of_shape h.2⟩

variable [ScalarRepr F] (p : Rescue.Params F)

omit [DecidableEq F] [ScalarRepr F] in
theorem defaultFold_consistent (P : SimFr.Params) (hr : 1 < P.r) : (defaultFold P F).Consistent :=
  ⟨by simp only [defaultFold]; omega, hr, by simp only [defaultFold]; omega, 0, 0, 0, 0, 0, 0, rfl, rfl, by simp [defaultFold]⟩

/-- C88: the keys made by `ProverParams::new` for some numbers of inputs and outputs and a depth of the tree are those of the circuit
of every transfer with these numbers and paths of this length. -/
theorem C88_transfer_keys (dbg : Bool) (P : SimFr.Params) (hP : FoldOk P F) (hr : 1 < P.r) (modulus : Bytes) (feeType : F)
    (wit : FoldWitness P F) (hw : wit.Consistent) (payers : List (Payer F)) (payees : List (Payee F)) (depth : Nat)
    (hd : ∀ s ∈ payers, s.path.length = depth) (pk : Anon.PK F) (sk : Anon.SK F) (fee : F) (vars : XfrVars FoldVars) (cs : CS F)
    (hb : buildMultiXfr p (foldingCircuit p dbg P modulus wit) payers payees pk sk fee feeType CS.new = some (vars, cs)) :
    ∃ cs0, transferCs p dbg P modulus feeType payers.length payees.length depth = some cs0 ∧ SameKeys cs cs0 := by
  have hu := C67_transfer_uniform p (foldingCircuit p dbg P modulus wit) (foldingCircuit p dbg P modulus (defaultFold P F))
    (fun pk sk => C72_folding_uniform p dbg P hP modulus _ _ hw (defaultFold_consistent P hr) pk sk) payers
    (List.replicate payers.length (fakePayer depth)) payees (List.replicate payees.length (fakePayee (defaultPk F))) pk (defaultPk F) sk
    (Anon.Spec.skWords 0) fee 0 feeType (by
      rw [List.map_replicate, List.eq_replicate_iff]
      refine ⟨by simp, fun x hx => ?_⟩
      obtain ⟨s, hs, rfl⟩ := List.mem_map.mp hx
      rw [hd s hs]
      simp [fakePayer]) (by simp)
  exact uniform_some hu hb

/-- C88: the same for conversions from a transparent record. -/
theorem C88_ar_to_abar_keys (pk : Anon.PK F) (t : Payee F) (vars : PayeeVars) (cs : CS F) (hb : buildArToAbar p t CS.new = some (vars, cs)) :
    ∃ cs0, arToAbarCs p pk = some cs0 ∧ SameKeys cs cs0 :=
  uniform_some (C73_ar_to_abar_uniform p t (fakePayee pk)) hb

/-- C88: the same for conversions to a transparent record, from a tree of a given depth. -/
theorem C88_abar_to_ar_keys (dbg : Bool) (P : SimFr.Params) (hP : FoldOk P F) (hr : 1 < P.r) (modulus : Bytes) (wit : FoldWitness P F)
    (hw : wit.Consistent) (s : Payer F) (pk : Anon.PK F) (sk : Anon.SK F) (vars : AbarVars FoldVars) (cs : CS F)
    (hb : buildAbarToAr p (foldingCircuit p dbg P modulus wit) s pk sk CS.new = some (vars, cs)) :
    ∃ cs0, abarToArCs p dbg P modulus s.path.length = some cs0 ∧ SameKeys cs cs0 :=
  uniform_some (C74_abar_to_ar_uniform p _ _
    (fun pk sk => C72_folding_uniform p dbg P hP modulus _ _ hw (defaultFold_consistent P hr) pk sk) s (fakePayer s.path.length) pk
    (defaultPk F) sk (Anon.Spec.skWords 0) (by simp [fakePayer])) hb

/-- C88: the same for conversions from a confidential record. -/
theorem C88_bar_to_abar_keys (dbg : Bool) (Q : SimFr.Params) (hQ : InspOk Q F) (pk : Anon.PK F) (t : Payee F) (wit : InspWitness Q F)
    (hw : wit.Consistent) (vars : BarVars F) (cs : CS F) (hb : buildBarToAbar p dbg Q t wit CS.new = some (vars, cs)) :
    ∃ cs0, barToAbarCs p dbg Q pk = some cs0 ∧ SameKeys cs cs0 :=
  uniform_some (C75_bar_to_abar_uniform p dbg Q hQ t (fakePayee pk) wit _ hw (InspWitness.default_consistent Q)) hb

/-- C88: the same for conversions to a confidential record, from a tree of a given depth. -/
theorem C88_abar_to_bar_keys (dbg : Bool) (P Q : SimFr.Params) (hP : FoldOk P F) (hr : 1 < P.r) (hQ : InspOk Q F) (modulus : Bytes)
    (wit : FoldWitness P F) (hw : wit.Consistent) (insp : InspWitness Q F) (hi : insp.Consistent) (s : Payer F) (pk : Anon.PK F)
    (sk : Anon.SK F) (vars : AbarBarVars F FoldVars) (cs : CS F)
    (hb : buildAbarToBar p (foldingCircuit p dbg P modulus wit) dbg Q s pk sk insp CS.new = some (vars, cs)) :
    ∃ cs0, abarToBarCs p dbg P Q modulus s.path.length = some cs0 ∧ SameKeys cs cs0 :=
  uniform_some (C76_abar_to_bar_uniform p _ _
    (fun pk sk => C72_folding_uniform p dbg P hP modulus _ _ hw (defaultFold_consistent P hr) pk sk) dbg Q hQ s
    (fakePayer s.path.length) pk (defaultPk F) sk (Anon.Spec.skWords 0) (by simp [fakePayer]) insp _ hi
    (InspWitness.default_consistent Q)) hb

end

end Verif.Setup
