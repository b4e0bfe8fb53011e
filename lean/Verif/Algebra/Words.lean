import Mathlib.Data.Nat.Digits.Defs
import Mathlib.Data.Nat.Digits.Lemmas
import Mathlib.Data.List.DropRight
import Mathlib.Data.Nat.Log
import Mathlib.Tactic.Ring
import Mathlib.Tactic.Linarith
import Verif.Bytes
import Verif.Res

/-!
C64: byte and limb helpers of `algebra/src/utils.rs`.
-/

namespace Verif.Words

/-! ### Model -/

/-- `let mut a = [0u8; n]; a.copy_from_slice(slice); uN::from_be_bytes(a)`: `copy_from_slice` panics when the lengths
differ.  Common shape of algebra/src/utils.rs:10-14 and 24-28 -/
def readBE (n : Nat) (slice : Bytes) : Res Nat := if slice.length = n then .ok (ofBE slice) else .panic

/-- as `readBE` with `from_le_bytes`; common shape of algebra/src/utils.rs:17-21 and 31-35 -/
def readLE (n : Nat) (slice : Bytes) : Res Nat := if slice.length = n then .ok (ofLE slice) else .panic

/-- models algebra/src/utils.rs:10-14 -/
def beSliceToU64 (s : Bytes) : Res Nat := readBE 8 s
/-- models algebra/src/utils.rs:17-21 -/
def leSliceToU64 (s : Bytes) : Res Nat := readLE 8 s
/-- models algebra/src/utils.rs:24-28 -/
def beSliceToU32 (s : Bytes) : Res Nat := readBE 4 s
/-- models algebra/src/utils.rs:31-35 -/
def leSliceToU32 (s : Bytes) : Res Nat := readLE 4 s

/-- models algebra/src/utils.rs:38-40.  The floating point `log2` and `powi` are taken at their exact values (the
distance of `log2 n` from an integer, for `n < 2^32` no power of two, is at least `2^-33`, far above the rounding error);
`0` gives `2^(-inf) = 0`; the cast `as u32` saturates. -/
def minGePow2 (n : UInt32) : Nat := if n.toNat = 0 then 0 else min (2 ^ Nat.clog 2 n.toNat) (2 ^ 32 - 1)

/-- the loop of algebra/src/utils.rs:71-76, from the last byte to the first; the second component is `next` -/
def shiftLoop : Bytes → Bytes × UInt8
  | [] => ([], 0)
  | e :: es => (((e >>> 1) ||| (shiftLoop es).2) :: (shiftLoop es).1, (e % 2) <<< 7)

/-- models algebra/src/utils.rs:70-80; `r.last().unwrap()` panics on an empty vector -/
def shiftU8Vec (r : Bytes) : Res Bytes :=
  let r' := (shiftLoop r).1
  match r'.getLast? with
  | none => .panic
  | some b => .ok (if b = 0 ∧ r'.length > 1 then r'.dropLast else r')

/-- the loop `while let Some(b) = v.last() { if *b != 0 { break } v.pop() }` of algebra/src/utils.rs:88-93 -/
def popZeros {α : Type} [DecidableEq α] [OfNat α 0] (v : List α) : List α := v.rdropWhile (fun b => decide (b = 0))

/-- models algebra/src/utils.rs:83-95 -/
def lsfToBytes (slice : List UInt64) : Bytes := popZeros (slice.flatMap (fun a => leBytes 8 a.toNat))

/-- models algebra/src/utils.rs:98-113.  The slices of the loop have length eight, so `copy_from_slice` does not panic;
the last, partial chunk is copied to the front of eight zero bytes. -/
def limbsFromBytes (slice : Bytes) : List UInt64 :=
  let n := slice.length / 8
  let r := (List.range n).map (fun i => UInt64.ofNat (ofLE ((slice.drop (i * 8)).take 8)))
  if slice.length % 8 ≠ 0 then
    let bytes := slice.drop (n * 8)
    r ++ [UInt64.ofNat (ofLE (bytes ++ List.replicate (8 - bytes.length) 0))]
  else r

/-- models algebra/src/traits.rs:65-70, `fieldSize` being `Self::get_field_size_le_bytes()` -/
def fieldSizeMinusOneHalf (fieldSize : Bytes) : Res Bytes := shiftU8Vec fieldSize

/-- models `get_little_endian_u64` of algebra/src/bls12_381.rs:289-296 and algebra/src/jubjub.rs:242-249, on the
little-endian bytes `a` of the representative (`a[24..]` must have eight bytes; slicing out of range panics) -/
def fourLimbs (a : Bytes) : Res (List Nat) :=
  if a.length < 24 then .panic
  else do
    let a1 ← leSliceToU64 (a.take 8)
    let a2 ← leSliceToU64 ((a.drop 8).take 8)
    let a3 ← leSliceToU64 ((a.drop 16).take 8)
    let a4 ← leSliceToU64 (a.drop 24)
    return [a1, a2, a3, a4]

/-- models `get_little_endian_u64` of algebra/src/secp256k1.rs:253-260: the same code as `fourLimbs`, but the
representative is a `BigInteger320` (algebra/src/secp256k1.rs:7, 33), so it has forty bytes -/
def secp256k1Limbs (x : Nat) : Res (List Nat) := fourLimbs (leBytes 40 x)

/-! ### Specification -/

/-- the integer represented by little-endian 64-bit limbs -/
def limbsVal (l : List UInt64) : Nat := Nat.ofDigits (2 ^ 64) (l.map UInt64.toNat)

/-! ### Lemmas -/

theorem byte_shift (e : UInt8) : ((e >>> 1) ||| 0).toNat = e.toNat / 2 ∧ ((e >>> 1) ||| 128).toNat = e.toNat / 2 + 128 ∧
    (e % 2) <<< 7 = if e.toNat % 2 = 1 then 128 else 0 := by
  have h : ∀ n : Fin 256, ((UInt8.ofNat n >>> 1) ||| 0).toNat = (UInt8.ofNat n).toNat / 2 ∧
      ((UInt8.ofNat n >>> 1) ||| 128).toNat = (UInt8.ofNat n).toNat / 2 + 128 ∧
      (UInt8.ofNat n % 2) <<< 7 = if (UInt8.ofNat n).toNat % 2 = 1 then 128 else 0 := by decide +kernel
  have := h ⟨e.toNat, e.toNat_lt⟩
  simpa using this

theorem shiftLoop_length (l : Bytes) : (shiftLoop l).1.length = l.length := by
  induction l with
  | nil => rfl
  | cons e es ih => simp [shiftLoop, ih]

theorem shiftLoop_spec (l : Bytes) : ofLE (shiftLoop l).1 = ofLE l / 2 ∧
    (shiftLoop l).2 = if ofLE l % 2 = 1 then 128 else 0 := by
  induction l with
  | nil => simp [shiftLoop, ofLE]
  | cons e es ih =>
    obtain ⟨h0, h1, h2⟩ := byte_shift e
    have hc : ofLE (e :: es) = e.toNat + 256 * ofLE es := rfl
    generalize ofLE (e :: es) = v at hc
    simp only [shiftLoop, ofLE, ih.2]
    constructor
    · by_cases hp : ofLE es % 2 = 1
      · rw [if_pos hp, h1, ih.1]; omega
      · rw [if_neg hp, h0, ih.1]; omega
    · rw [h2]
      by_cases hp : e.toNat % 2 = 1
      · rw [if_pos hp, if_pos (by omega)]
      · rw [if_neg hp, if_neg (by omega)]

theorem ofLE_eq_ofDigits (l : Bytes) : ofLE l = Nat.ofDigits 256 (l.map UInt8.toNat) := by
  induction l with
  | nil => simp [ofLE]
  | cons a l ih => simp [ofLE, Nat.ofDigits_cons, ih]

theorem ofLE_replicate_zero (n : Nat) : ofLE (List.replicate n 0) = 0 := by
  induction n with
  | zero => rfl
  | succ n ih => simp [List.replicate_succ, ofLE, ih]

theorem ofLE_append_zeros (l : Bytes) (n : Nat) : ofLE (l ++ List.replicate n 0) = ofLE l := by
  rw [ofLE_append, ofLE_replicate_zero]; simp

theorem popZeros_append {α : Type} [DecidableEq α] [OfNat α 0] (l : List α) :
    ∃ n, l = popZeros l ++ List.replicate n 0 := by
  refine ⟨(l.rtakeWhile (fun b => decide (b = 0))).length, ?_⟩
  have h : l.rtakeWhile (fun b => decide (b = 0)) =
      List.replicate (l.rtakeWhile (fun b => decide (b = 0))).length 0 := by
    rw [List.eq_replicate_iff]
    refine ⟨rfl, fun b hb => ?_⟩
    have := List.mem_rtakeWhile_imp hb
    simpa using this
  rw [← h, popZeros]
  have := List.rdropWhile_append_rtakeWhile (p := fun b => decide (b = (0 : α))) (l := l)
  exact this.symm

theorem popZeros_last {α : Type} [DecidableEq α] [OfNat α 0] (l : List α) (h : popZeros l ≠ []) :
    (popZeros l).getLast h ≠ 0 := by
  have := List.rdropWhile_last_not (p := fun b => decide (b = (0 : α))) l h
  simpa [popZeros] using this

theorem ofLE_popZeros (l : Bytes) : ofLE (popZeros l) = ofLE l := by
  obtain ⟨n, h⟩ := popZeros_append l
  conv_rhs => rw [h]
  rw [ofLE_append_zeros]

theorem limbsVal_append_zeros (l : List UInt64) (n : Nat) : limbsVal (l ++ List.replicate n 0) = limbsVal l := by
  unfold limbsVal
  rw [List.map_append, Nat.ofDigits_append]
  have : Nat.ofDigits (2 ^ 64) ((List.replicate n (0 : UInt64)).map UInt64.toNat) = 0 := by
    induction n with
    | zero => rfl
    | succ n ih => rw [List.replicate_succ, List.map_cons, Nat.ofDigits_cons, ih]; simp
  rw [this]; simp

theorem limbsVal_popZeros (l : List UInt64) : limbsVal (popZeros l) = limbsVal l := by
  obtain ⟨n, h⟩ := popZeros_append l
  conv_rhs => rw [h]
  rw [limbsVal_append_zeros]

theorem map_getLast_ne {α : Type} (f : α → Nat) (l : List α) (z : α) (hf : ∀ a, f a = 0 → a = z)
    (h : ∀ h : l ≠ [], l.getLast h ≠ z) (h' : l.map f ≠ []) : (l.map f).getLast h' ≠ 0 := by
  have hl : l ≠ [] := by simpa using h'
  rw [List.getLast_map]
  exact fun e => h hl (hf _ e)

/-- a limb list without trailing zero limb is determined by its value -/
theorem limbs_unique {a b : List UInt64} (ha : ∀ h : a ≠ [], a.getLast h ≠ 0) (hb : ∀ h : b ≠ [], b.getLast h ≠ 0)
    (h : limbsVal a = limbsVal b) : a = b := by
  have key : ∀ l : List UInt64, (∀ h : l ≠ [], l.getLast h ≠ 0) →
      Nat.digits (2 ^ 64) (limbsVal l) = l.map UInt64.toNat := by
    intro l hl
    refine Nat.digits_ofDigits _ (by norm_num) _ ?_ ?_
    · intro x hx
      obtain ⟨u, -, rfl⟩ := List.mem_map.mp hx
      exact u.toNat_lt
    · exact map_getLast_ne _ _ 0 (fun a h => UInt64.toNat_inj.mp h) hl
  have e : a.map UInt64.toNat = b.map UInt64.toNat := by rw [← key a ha, ← key b hb, h]
  exact List.map_injective_iff.mpr (fun x y h => UInt64.toNat_inj.mp h) e

/-- a byte list without trailing zero byte is determined by its value -/
theorem bytes_unique {a b : Bytes} (ha : ∀ h : a ≠ [], a.getLast h ≠ 0) (hb : ∀ h : b ≠ [], b.getLast h ≠ 0)
    (h : ofLE a = ofLE b) : a = b := by
  have key : ∀ l : Bytes, (∀ h : l ≠ [], l.getLast h ≠ 0) → Nat.digits 256 (ofLE l) = l.map UInt8.toNat := by
    intro l hl
    rw [ofLE_eq_ofDigits]
    refine Nat.digits_ofDigits _ (by norm_num) _ ?_ ?_
    · intro x hx
      obtain ⟨u, -, rfl⟩ := List.mem_map.mp hx
      exact u.toNat_lt
    · exact map_getLast_ne _ _ 0 (fun a h => UInt8.toNat_inj.mp h) hl
  have e : a.map UInt8.toNat = b.map UInt8.toNat := by rw [← key a ha, ← key b hb, h]
  exact List.map_injective_iff.mpr (fun x y h => UInt8.toNat_inj.mp h) e

theorem limbsFromBytes_nil : limbsFromBytes [] = [] := rfl

theorem limbsFromBytes_chunk (a b : Bytes) (ha : a.length = 8) :
    limbsFromBytes (a ++ b) = UInt64.ofNat (ofLE a) :: limbsFromBytes b := by
  have hn : (a ++ b).length / 8 = b.length / 8 + 1 := by rw [List.length_append, ha]; omega
  have hm : (a ++ b).length % 8 = b.length % 8 := by rw [List.length_append, ha]; omega
  have hd : ∀ i, (a ++ b).drop ((i + 1) * 8) = b.drop (i * 8) := by
    intro i
    rw [show (i + 1) * 8 = a.length + i * 8 by omega, ← List.drop_drop, List.drop_left]
  unfold limbsFromBytes
  simp only [hn, hm, hd, List.range_succ_eq_map, List.map_cons, List.map_map]
  have h0 : ((a ++ b).drop (0 * 8)).take 8 = a := by rw [Nat.zero_mul, List.drop_zero, List.take_left' ha]
  rw [h0]
  have h1 : ((fun i => UInt64.ofNat (ofLE (((a ++ b).drop (i * 8)).take 8))) ∘ Nat.succ) =
      fun i => UInt64.ofNat (ofLE ((b.drop (i * 8)).take 8)) := by
    funext i
    simp only [Function.comp, Nat.succ_eq_add_one, hd]
  rw [h1]
  split <;> simp

theorem limbsFromBytes_short (b : Bytes) (h0 : b ≠ []) (h : b.length < 8) :
    limbsFromBytes b = [UInt64.ofNat (ofLE b)] := by
  have hp : 0 < b.length := List.length_pos_iff.mpr h0
  unfold limbsFromBytes
  simp only [show b.length / 8 = 0 by omega, show b.length % 8 = b.length by omega, List.range_zero, List.map_nil,
    Nat.zero_mul, List.drop_zero, List.nil_append, ofLE_append_zeros]
  rw [if_pos (by omega)]

/-- induction over chunks of eight bytes -/
theorem chunk_induction {P : Bytes → Prop} (h0 : P []) (h1 : ∀ b, b ≠ [] → b.length < 8 → P b)
    (h2 : ∀ a b, a.length = 8 → P b → P (a ++ b)) (l : Bytes) : P l := by
  suffices H : ∀ n (l : Bytes), l.length ≤ n → P l from H l.length l le_rfl
  intro n
  induction n with
  | zero => intro l hl; rw [List.length_eq_zero_iff.mp (Nat.le_zero.mp hl)]; exact h0
  | succ n ih =>
    intro l hl
    by_cases hs : l.length < 8
    · by_cases he : l = []
      · subst he; exact h0
      · exact h1 l he hs
    · rw [← List.take_append_drop 8 l]
      refine h2 _ _ (by rw [List.length_take]; omega) (ih _ ?_)
      rw [List.length_drop]; omega

theorem toNat_ofNat_bytes {a : Bytes} (h : a.length ≤ 8) : (UInt64.ofNat (ofLE a)).toNat = ofLE a := by
  rw [UInt64.toNat_ofNat']
  refine Nat.mod_eq_of_lt (lt_of_lt_of_le (ofLE_lt a) ?_)
  calc 256 ^ a.length ≤ 256 ^ 8 := Nat.pow_le_pow_right (by norm_num) h
    _ = 2 ^ 64 := by norm_num

theorem limbsVal_cons (a : UInt64) (l : List UInt64) : limbsVal (a :: l) = a.toNat + 2 ^ 64 * limbsVal l := by
  simp [limbsVal, Nat.ofDigits_cons]

theorem limbsVal_limbsFromBytes (b : Bytes) : limbsVal (limbsFromBytes b) = ofLE b := by
  induction b using chunk_induction with
  | h0 => rfl
  | h1 b h hb => rw [limbsFromBytes_short b h hb, limbsVal_cons, toNat_ofNat_bytes (by omega)]; simp [limbsVal]
  | h2 a b ha ih =>
    rw [limbsFromBytes_chunk a b ha, limbsVal_cons, toNat_ofNat_bytes (by omega), ih, ofLE_append, ha]
    norm_num

theorem limbsFromBytes_length (b : Bytes) : (limbsFromBytes b).length = (b.length + 7) / 8 := by
  induction b using chunk_induction with
  | h0 => rfl
  | h1 b h hb =>
    have hp : 0 < b.length := List.length_pos_iff.mpr h
    rw [limbsFromBytes_short b h hb]; simp; omega
  | h2 a b ha ih => rw [limbsFromBytes_chunk a b ha]; simp [ih, ha]; omega

theorem ofLE_flatMap (l : List UInt64) : ofLE (l.flatMap (fun a => leBytes 8 a.toNat)) = limbsVal l := by
  induction l with
  | nil => rfl
  | cons a l ih =>
    rw [List.flatMap_cons, ofLE_append, ih, limbsVal_cons, leBytes_length,
      ofLE_leBytes_of_lt (by have := a.toNat_lt; norm_num at this ⊢; exact this)]
    norm_num

theorem ofLE_lsfToBytes (l : List UInt64) : ofLE (lsfToBytes l) = limbsVal l := by
  rw [lsfToBytes, ofLE_popZeros, ofLE_flatMap]

/-- bytes without trailing zero give limbs without trailing zero -/
theorem limbsFromBytes_last (b : Bytes) (hb : ∀ h : b ≠ [], b.getLast h ≠ 0) (h : limbsFromBytes b ≠ []) :
    (limbsFromBytes b).getLast h ≠ 0 := by
  have pos : ∀ b : Bytes, b ≠ [] → (∀ h : b ≠ [], b.getLast h ≠ 0) → ofLE b ≠ 0 := by
    intro b hne hb e
    have := bytes_unique (a := b) (b := []) hb (fun h => absurd rfl h) (by rw [e]; rfl)
    exact hne this
  revert hb h
  induction b using chunk_induction with
  | h0 => intro _ h; exact absurd rfl h
  | h1 b hne hl =>
    intro hb h
    simp only [limbsFromBytes_short b hne hl, List.getLast_singleton]
    intro e
    have := congrArg UInt64.toNat e
    rw [toNat_ofNat_bytes (by omega)] at this
    exact pos b hne hb this
  | h2 a b ha ih =>
    intro hb h
    simp only [limbsFromBytes_chunk a b ha]
    by_cases hbe : b = []
    · subst hbe
      simp only [limbsFromBytes_nil, List.getLast_singleton]
      intro e
      have := congrArg UInt64.toNat e
      rw [toNat_ofNat_bytes (by omega)] at this
      refine pos a ?_ ?_ this
      · intro e; rw [e] at ha; simp at ha
      · simpa using hb
    · have hl : limbsFromBytes b ≠ [] := by
        intro e
        have h' := limbsFromBytes_length b
        have hp : 0 < b.length := List.length_pos_iff.mpr hbe
        rw [e, List.length_nil] at h'; omega
      rw [List.getLast_cons hl]
      refine ih (fun hb' => ?_) hl
      have := hb (by simp [hbe])
      rwa [List.getLast_append_of_ne_nil _ hbe] at this

/-! ### Properties -/

/-- C64: each reader returns the integer on a slice of the right length and panics on every other length; reading what
the standard writer wrote gives the integer back, and writing what was read gives the bytes back. -/
theorem C64_readers_invert_writers :
    (∀ x, x < 2 ^ 64 → beSliceToU64 (beBytes 8 x) = .ok x ∧ leSliceToU64 (leBytes 8 x) = .ok x) ∧
    (∀ x, x < 2 ^ 32 → beSliceToU32 (beBytes 4 x) = .ok x ∧ leSliceToU32 (leBytes 4 x) = .ok x) ∧
    (∀ s x, beSliceToU64 s = .ok x → x < 2 ^ 64 ∧ beBytes 8 x = s) ∧
    (∀ s x, leSliceToU64 s = .ok x → x < 2 ^ 64 ∧ leBytes 8 x = s) ∧
    (∀ s x, beSliceToU32 s = .ok x → x < 2 ^ 32 ∧ beBytes 4 x = s) ∧
    (∀ s x, leSliceToU32 s = .ok x → x < 2 ^ 32 ∧ leBytes 4 x = s) := by
  have wBE : ∀ n x, x < 256 ^ n → readBE n (beBytes n x) = .ok x := by
    intro n x h; rw [readBE, if_pos (by simp), ofBE_beBytes_of_lt h]
  have wLE : ∀ n x, x < 256 ^ n → readLE n (leBytes n x) = .ok x := by
    intro n x h; rw [readLE, if_pos (by simp), ofLE_leBytes_of_lt h]
  have rBE : ∀ n s x, readBE n s = .ok x → x < 256 ^ n ∧ beBytes n x = s := by
    intro n s x h
    unfold readBE at h
    split at h
    · next hl => injection h with h; subst h hl; exact ⟨ofBE_lt s, beBytes_ofBE s⟩
    · exact absurd h (by simp)
  have rLE : ∀ n s x, readLE n s = .ok x → x < 256 ^ n ∧ leBytes n x = s := by
    intro n s x h
    unfold readLE at h
    split at h
    · next hl => injection h with h; subst h hl; exact ⟨ofLE_lt s, leBytes_ofLE s⟩
    · exact absurd h (by simp)
  have e8 : (2 : Nat) ^ 64 = 256 ^ 8 := by norm_num
  have e4 : (2 : Nat) ^ 32 = 256 ^ 4 := by norm_num
  rw [e8, e4]
  exact ⟨fun x h => ⟨wBE 8 x h, wLE 8 x h⟩, fun x h => ⟨wBE 4 x h, wLE 4 x h⟩, rBE 8, rLE 8, rBE 4, rLE 4⟩

/-- C64: a reader panics exactly on slices of the wrong length. -/
theorem C64_readers_panic_iff (s : Bytes) :
    (beSliceToU64 s = .panic ↔ s.length ≠ 8) ∧ (leSliceToU64 s = .panic ↔ s.length ≠ 8) ∧
    (beSliceToU32 s = .panic ↔ s.length ≠ 4) ∧ (leSliceToU32 s = .panic ↔ s.length ≠ 4) := by
  simp only [beSliceToU64, leSliceToU64, beSliceToU32, leSliceToU32, readBE, readLE]
  refine ⟨?_, ?_, ?_, ?_⟩ <;> split <;> simp_all

/-- C64: big-endian reading in terms of digits, independent of `ofBE`: the first byte is the most significant. -/
theorem C64_big_endian (a b c d : UInt8) :
    beSliceToU32 [a, b, c, d] = .ok (a.toNat * 2 ^ 24 + b.toNat * 2 ^ 16 + c.toNat * 2 ^ 8 + d.toNat) := by
  simp [beSliceToU32, readBE, ofBE, ofLE]; ring

example : beSliceToU32 [0xFA, 0x01, 0xC6, 0x73] = .ok 0xFA01C673 := by decide +kernel

/-- C64: `shift_u8_vec` halves the little-endian integer; the vector keeps its length unless the top byte became zero,
in which case that byte (only one) is dropped. -/
theorem C64_shift_halves (r r' : Bytes) (h : shiftU8Vec r = .ok r') :
    ofLE r' = ofLE r / 2 ∧ (r'.length = r.length ∨ r'.length + 1 = r.length) ∧
      (r'.length ≠ r.length ↔ 1 < r.length ∧ ofLE r < 2 * 256 ^ (r.length - 1)) ∧ 0 < r'.length := by
  obtain ⟨hv, -⟩ := shiftLoop_spec r
  have hl := shiftLoop_length r
  unfold shiftU8Vec at h
  simp only at h
  generalize (shiftLoop r).1 = s at h hv hl
  rcases List.eq_nil_or_concat s with rfl | ⟨t, b, rfl⟩
  · exact absurd h (by simp)
  simp only [List.concat_eq_append, List.getLast?_append, List.getLast?_singleton, Option.some_or,
    List.dropLast_concat, List.length_append, List.length_singleton] at h hl hv
  have ht := ofLE_lt t
  rw [ofLE_append] at hv
  simp only [ofLE, Nat.mul_zero, Nat.add_zero] at hv
  injection h with h
  rw [show r.length - 1 = t.length by omega]
  split at h
  · next hc =>
    obtain ⟨rfl, hlen⟩ := hc
    subst h
    simp only [UInt8.toNat_zero, Nat.mul_zero, Nat.add_zero] at hv
    refine ⟨hv, Or.inr hl, ⟨fun _ => ⟨by omega, by omega⟩, fun _ => by omega⟩, by omega⟩
  · next hc =>
    subst h
    have hb : b = 0 → t.length = 0 := fun e => by
      by_contra hne; exact hc ⟨e, by omega⟩
    refine ⟨by rw [ofLE_append]; simp only [ofLE, Nat.mul_zero, Nat.add_zero]; exact hv,
      Or.inl (by simpa using hl), ⟨fun hh => absurd (by simpa using hl) hh, fun ⟨h1, h2⟩ => ?_⟩, by simp⟩
    exfalso
    have hbn : b ≠ 0 := fun e => by have := hb e; omega
    have hbp : 0 < b.toNat := by
      rcases Nat.eq_zero_or_pos b.toNat with e | e
      · exact absurd (UInt8.toNat_inj.mp e) hbn
      · exact e
    have : 256 ^ t.length ≤ 256 ^ t.length * b.toNat := Nat.le_mul_of_pos_right _ hbp
    omega

example : shiftU8Vec [0, 0, 1] = .ok [0, 128] := by decide +kernel
example : shiftU8Vec [255, 1] = .ok [255] := by decide +kernel

/-- C64: shifting never fails except that it panics on the empty vector. -/
theorem C64_shift_total (r : Bytes) : (r = [] → shiftU8Vec r = .panic) ∧ (r ≠ [] → ∃ r', shiftU8Vec r = .ok r') := by
  constructor
  · rintro rfl; rfl
  · intro h
    have hl := shiftLoop_length r
    unfold shiftU8Vec
    simp only
    generalize (shiftLoop r).1 = s at hl
    rcases List.eq_nil_or_concat s with rfl | ⟨t, b, rfl⟩
    · exact absurd (List.length_eq_zero_iff.mp hl.symm) h
    · simp

/-- C64: applied to the little-endian bytes of an odd field size `q` it gives `(q - 1) / 2`, the Euler exponent. -/
theorem C64_field_size_half (q : Nat) (bytes : Bytes) (hq : ofLE bytes = q) (hodd : q % 2 = 1) :
    ∃ r, fieldSizeMinusOneHalf bytes = .ok r ∧ 2 * ofLE r + 1 = q := by
  have hne : bytes ≠ [] := by rintro rfl; simp [ofLE] at hq; omega
  obtain ⟨r, hr⟩ := (C64_shift_total bytes).2 hne
  refine ⟨r, hr, ?_⟩
  have := (C64_shift_halves bytes r hr).1
  omega

example : fieldSizeMinusOneHalf [101] = .ok [50] := by decide +kernel

/-- C64: both conversions preserve the integer. -/
theorem C64_limbs_preserve_value (b : Bytes) (l : List UInt64) :
    limbsVal (limbsFromBytes b) = ofLE b ∧ ofLE (lsfToBytes l) = limbsVal l :=
  ⟨limbsVal_limbsFromBytes b, ofLE_lsfToBytes l⟩

/-- C64: packing bytes into limbs and unpacking gives the bytes back up to trailing (most significant) zeros, exactly the
bytes when the last one is not zero. -/
theorem C64_pack_then_unpack (b : Bytes) :
    (∃ n, b = lsfToBytes (limbsFromBytes b) ++ List.replicate n 0) ∧
      ((∀ h : b ≠ [], b.getLast h ≠ 0) → lsfToBytes (limbsFromBytes b) = b) := by
  have e : lsfToBytes (limbsFromBytes b) = popZeros b := by
    refine bytes_unique (fun h => popZeros_last _ h) (fun h => popZeros_last _ h) ?_
    rw [ofLE_lsfToBytes, limbsVal_limbsFromBytes, ofLE_popZeros]
  refine ⟨by rw [e]; exact popZeros_append b, fun h => ?_⟩
  refine bytes_unique (fun h => popZeros_last _ h) h ?_
  rw [ofLE_lsfToBytes, limbsVal_limbsFromBytes]

/-- C64: unpacking limbs into bytes and packing gives the limbs back up to trailing zero limbs. -/
theorem C64_unpack_then_pack (l : List UInt64) :
    (∃ n, l = limbsFromBytes (lsfToBytes l) ++ List.replicate n 0) ∧
      ((∀ h : l ≠ [], l.getLast h ≠ 0) → limbsFromBytes (lsfToBytes l) = l) := by
  have hlast := fun h => limbsFromBytes_last (lsfToBytes l) (fun h => popZeros_last _ h) h
  have e : limbsFromBytes (lsfToBytes l) = popZeros l := by
    refine limbs_unique hlast (fun h => popZeros_last _ h) ?_
    rw [limbsVal_limbsFromBytes, ofLE_lsfToBytes, limbsVal_popZeros]
  refine ⟨by rw [e]; exact popZeros_append l, fun h => ?_⟩
  refine limbs_unique hlast h ?_
  rw [limbsVal_limbsFromBytes, ofLE_lsfToBytes]

/-- C64: the number of limbs is the number of bytes over eight, rounded up. -/
theorem C64_limb_count (b : Bytes) : (limbsFromBytes b).length = (b.length + 7) / 8 := limbsFromBytes_length b

example : limbsFromBytes (lsfToBytes [1, 2, 3, 0, 0]) = [1, 2, 3] := by decide +kernel
example : lsfToBytes (limbsFromBytes [1, 2, 3, 4, 5, 6, 7, 8, 9, 0]) = [1, 2, 3, 4, 5, 6, 7, 8, 9] := by decide +kernel

/-- C64: up to `2^31` the function returns the least power of two that is at least its argument. -/
theorem C64_min_power_of_two (n : UInt32) (h1 : 1 ≤ n.toNat) (h2 : n.toNat ≤ 2 ^ 31) :
    (∃ k, minGePow2 n = 2 ^ k) ∧ n.toNat ≤ minGePow2 n ∧ (∀ k, n.toNat ≤ 2 ^ k → minGePow2 n ≤ 2 ^ k) := by
  have hc : Nat.clog 2 n.toNat ≤ 31 := (Nat.clog_le_iff_le_pow (by norm_num)).mpr h2
  have hle : 2 ^ Nat.clog 2 n.toNat ≤ 2 ^ 31 := Nat.pow_le_pow_right (by norm_num) hc
  have e : minGePow2 n = 2 ^ Nat.clog 2 n.toNat := by
    unfold minGePow2
    rw [if_neg (by omega), Nat.min_eq_left (by omega)]
  rw [e]
  exact ⟨⟨_, rfl⟩, Nat.le_pow_clog (by norm_num) _,
    fun k hk => Nat.pow_le_pow_right (by norm_num) ((Nat.clog_le_iff_le_pow (by norm_num)).mpr hk)⟩

/-- C64: above `2^31` the cast saturates: the result is `u32::MAX`, not a power of two; and zero is mapped to zero. -/
theorem C64_min_power_saturates (n : UInt32) :
    (2 ^ 31 < n.toNat → minGePow2 n = 2 ^ 32 - 1 ∧ ¬ ∃ k, minGePow2 n = 2 ^ k) ∧ minGePow2 0 = 0 := by
  refine ⟨fun h => ?_, rfl⟩
  have hc : 32 ≤ Nat.clog 2 n.toNat := by
    by_contra hh
    have : Nat.clog 2 n.toNat ≤ 31 := by omega
    have := (Nat.clog_le_iff_le_pow (by norm_num)).mp this
    omega
  have hle : 2 ^ 32 ≤ 2 ^ Nat.clog 2 n.toNat := Nat.pow_le_pow_right (by norm_num) hc
  have e : minGePow2 n = 2 ^ 32 - 1 := by
    unfold minGePow2
    rw [if_neg (by omega), Nat.min_eq_right (by omega)]
  refine ⟨e, ?_⟩
  rintro ⟨k, hk⟩
  rw [e] at hk
  rcases Nat.eq_zero_or_pos k with rfl | hk0
  · norm_num at hk
  · obtain ⟨j, rfl⟩ := Nat.exists_eq_succ_of_ne_zero (by omega : k ≠ 0)
    rw [pow_succ] at hk
    omega

example : minGePow2 9 = 16 ∧ minGePow2 8 = 8 := by
  decide +kernel

/-- C64: the four-limb reader is right on a thirty-two byte representative. -/
theorem C64_four_limbs (x : Nat) (h : x < 2 ^ 256) :
    ∃ l, fourLimbs (leBytes 32 x) = .ok l ∧ l.length = 4 ∧ (∀ d ∈ l, d < 2 ^ 64) ∧ Nat.ofDigits (2 ^ 64) l = x := by
  have hv : ofLE (leBytes 32 x) = x := ofLE_leBytes_of_lt (by norm_num at h ⊢; exact h)
  have hl : (leBytes 32 x).length = 32 := leBytes_length 32 x
  generalize leBytes 32 x = a at hv hl
  have hb : ∀ b : Bytes, b.length = 8 → ofLE b < 2 ^ 64 := fun b hb => by
    have := ofLE_lt b; rw [hb] at this; norm_num at this ⊢; exact this
  have e1 : (a.take 8).length = 8 := by rw [List.length_take]; omega
  have e2 : ((a.drop 8).take 8).length = 8 := by rw [List.length_take, List.length_drop]; omega
  have e3 : ((a.drop 16).take 8).length = 8 := by rw [List.length_take, List.length_drop]; omega
  have e4 : (a.drop 24).length = 8 := by rw [List.length_drop]; omega
  refine ⟨[ofLE (a.take 8), ofLE ((a.drop 8).take 8), ofLE ((a.drop 16).take 8), ofLE (a.drop 24)], ?_, rfl, ?_, ?_⟩
  · unfold fourLimbs
    rw [if_neg (by omega)]
    simp only [leSliceToU64, readLE, e1, e2, e3, e4, if_pos, Res.bind_ok, Res.pure_eq]
  · intro d hd
    simp only [List.mem_cons, List.not_mem_nil, or_false] at hd
    rcases hd with rfl | rfl | rfl | rfl
    · exact hb _ e1
    · exact hb _ e2
    · exact hb _ e3
    · exact hb _ e4
  · have s1 : ofLE a = ofLE (a.take 8) + 256 ^ 8 * ofLE (a.drop 8) := by
      conv_lhs => rw [← List.take_append_drop 8 a, ofLE_append, e1]
    have s2 : ofLE (a.drop 8) = ofLE ((a.drop 8).take 8) + 256 ^ 8 * ofLE (a.drop 16) := by
      conv_lhs => rw [← List.take_append_drop 8 (a.drop 8), ofLE_append, e2, List.drop_drop]
    have s3 : ofLE (a.drop 16) = ofLE ((a.drop 16).take 8) + 256 ^ 8 * ofLE (a.drop 24) := by
      conv_lhs => rw [← List.take_append_drop 8 (a.drop 16), ofLE_append, e3, List.drop_drop]
    simp only [Nat.ofDigits_cons, Nat.ofDigits_nil]
    rw [← hv, s1, s2, s3]
    norm_num

/-- C64: the same code on the forty-byte representative of a secp256k1 scalar panics for every scalar: the last slice has
sixteen bytes. -/
theorem C64_secp256k1_limbs_panic (x : Nat) : secp256k1Limbs x = .panic := by
  unfold secp256k1Limbs
  have hl : (leBytes 40 x).length = 40 := leBytes_length 40 x
  generalize leBytes 40 x = a at hl
  unfold fourLimbs
  rw [if_neg (by omega)]
  have e1 : (a.take 8).length = 8 := by rw [List.length_take]; omega
  have e2 : ((a.drop 8).take 8).length = 8 := by rw [List.length_take, List.length_drop]; omega
  have e3 : ((a.drop 16).take 8).length = 8 := by rw [List.length_take, List.length_drop]; omega
  have e4 : (a.drop 24).length = 16 := by rw [List.length_drop]; omega
  simp only [leSliceToU64, readLE, e1, e2, e3, e4, if_pos, Res.bind_ok]
  rfl

end Verif.Words
