import Mathlib.Data.Nat.Digits.Defs
import Mathlib.Data.Nat.Digits.Lemmas
import Verif.Bytes

/-!
The two formats in which bodies of notes are written before they are signed, as instances of one interface (the trait
`serde::Serializer`): `bincode` 1.3 with the default options (`bincode::serialize`, api/src/anon_xfr/ar_to_abar.rs:58, 69, 88 and
bar_to_abar.rs:86, 109, 132) and MessagePack as written by `rmp_serde` 1.0 (`rmp_serde::Serializer::new`, api/src/xfr/mod.rs:452,
462).  Both are dependencies, modelled from their documented behaviour; neither is human readable.
-/

namespace Verif.Serde

/-- The part of `serde::Serializer` that the bodies use.  Compound values are written as a head followed by the parts; a newtype
struct is written as its content. -/
structure Format where
  /-- `serialize_u8` -/
  u8 : UInt8 → Bytes
  /-- `serialize_u32` -/
  u32 : UInt32 → Bytes
  /-- `serialize_u64` -/
  u64 : UInt64 → Bytes
  /-- `serialize_str` -/
  str : Bytes → Bytes
  /-- `serialize_bytes` -/
  bytes : Bytes → Bytes
  /-- `serialize_none` -/
  none : Bytes
  /-- what `serialize_some` writes before the value -/
  some : Bytes
  /-- head of `serialize_seq` -/
  seq : Nat → Bytes
  /-- head of `serialize_tuple` and `serialize_struct` -/
  tuple : Nat → Bytes
  /-- `serialize_unit_struct` -/
  unitStruct : Bytes
  /-- `serialize_unit_variant` (`false`) and head of `serialize_newtype_variant` (`true`), for the number and the name of a variant -/
  variant : Bool → Nat → Bytes → Bytes

/-- `bincode::serialize`: fixed-width little-endian integers, lengths as `u64`, numbers of variants as `u32`, no heads for tuples and
structs. -/
def bincode : Format where
  u8 x := [x]
  u32 x := leBytes 4 x.toNat
  u64 x := leBytes 8 x.toNat
  str s := leBytes 8 s.length ++ s
  bytes b := leBytes 8 b.length ++ b
  none := [0]
  some := [1]
  seq n := leBytes 8 n
  tuple _ := []
  unitStruct := []
  variant _ i _ := leBytes 4 i

/-- `rmp::encode::write_str_len` -/
def rmpStrLen (n : Nat) : Bytes :=
  if n < 32 then [UInt8.ofNat (0xa0 + n)]
  else if n < 256 then [0xd9, UInt8.ofNat n]
  else if n < 65536 then 0xda :: beBytes 2 n
  else 0xdb :: beBytes 4 n

/-- `rmp::encode::write_bin_len` -/
def rmpBinLen (n : Nat) : Bytes :=
  if n < 256 then [0xc4, UInt8.ofNat n]
  else if n < 65536 then 0xc5 :: beBytes 2 n
  else 0xc6 :: beBytes 4 n

/-- `rmp::encode::write_array_len` -/
def rmpArrayLen (n : Nat) : Bytes :=
  if n < 16 then [UInt8.ofNat (0x90 + n)]
  else if n < 65536 then 0xdc :: beBytes 2 n
  else 0xdd :: beBytes 4 n

/-- `rmp::encode::write_uint` -/
def rmpUint (n : Nat) : Bytes :=
  if n < 128 then [UInt8.ofNat n]
  else if n < 256 then [0xcc, UInt8.ofNat n]
  else if n < 65536 then 0xcd :: beBytes 2 n
  else if n < 2 ^ 32 then 0xce :: beBytes 4 n
  else 0xcf :: beBytes 8 n

/-- `rmp_serde::Serializer::new`: structs as arrays, `None` as nil, `Some` as its content, a variant without data as its name and one
with data as a map from the name to the data.  An integer is written in the shortest way. -/
def rmp : Format where
  u8 x := if x < 128 then [x] else [0xcc, x]
  u32 x := rmpUint x.toNat
  u64 x := rmpUint x.toNat
  str s := rmpStrLen s.length ++ s
  bytes b := rmpBinLen b.length ++ b
  none := [0xc0]
  some := []
  seq := rmpArrayLen
  tuple := rmpArrayLen
  unitStruct := rmpArrayLen 0
  variant data _ name := if data then 0x81 :: (rmpStrLen name.length ++ name) else rmpStrLen name.length ++ name

/-- `Display` of an unsigned integer, which `serde_str` passes to `serialize_str` -/
def decimal (n : Nat) : Bytes :=
  if n = 0 then [48] else (Nat.digits 10 n).reverse.map (fun d => UInt8.ofNat (48 + d))

/-- What the bodies need of a format: every piece can be told from what follows, as long as lengths are below `2^32`. -/
structure Format.Lawful (F : Format) : Prop where
  u8 : ∀ x y r s, F.u8 x ++ r = F.u8 y ++ s → x = y ∧ r = s
  str : ∀ x y r s, x.length < 2 ^ 32 → y.length < 2 ^ 32 → F.str x ++ r = F.str y ++ s → x = y ∧ r = s
  bytes : ∀ x y r s, x.length < 2 ^ 32 → y.length < 2 ^ 32 → F.bytes x ++ r = F.bytes y ++ s → x = y ∧ r = s
  seq : ∀ m n r s, m < 2 ^ 32 → n < 2 ^ 32 → F.seq m ++ r = F.seq n ++ s → m = n ∧ r = s
  variant : ∀ d e i j x y r s, i < 2 ^ 32 → j < 2 ^ 32 → x.length < 2 ^ 32 → y.length < 2 ^ 32 →
    F.variant d i x ++ r = F.variant e j y ++ s → i = j ∨ x = y
  none_tuple : ∀ n r s, F.none ++ r ≠ F.some ++ (F.tuple n ++ s)
  u8_ne : ∀ x, F.u8 x ≠ []
  str_len : ∀ x, x.length < (F.str x).length
  bytes_len : ∀ x, x.length < (F.bytes x).length
  seq_ne : ∀ n, F.seq n ≠ []
  none_ne : F.none ≠ []
  variant_ne : ∀ d i x, F.variant d i x ≠ []

theorem append_split {a b r s : Bytes} (hl : a.length = b.length) (h : a ++ r = b ++ s) : a = b ∧ r = s :=
  List.append_inj h hl

theorem leBytes_split {w m n : Nat} {r s : Bytes} (hm : m < 256 ^ w) (hn : n < 256 ^ w) (h : leBytes w m ++ r = leBytes w n ++ s) :
    m = n ∧ r = s := by
  obtain ⟨h1, h2⟩ := append_split (by simp) h
  exact ⟨leBytes_inj hm hn h1, h2⟩

theorem beBytes_split {w m n : Nat} {r s : Bytes} (hm : m < 256 ^ w) (hn : n < 256 ^ w) (h : beBytes w m ++ r = beBytes w n ++ s) :
    m = n ∧ r = s := by
  obtain ⟨h1, h2⟩ := append_split (by simp) h
  exact ⟨beBytes_inj hm hn h1, h2⟩

theorem bincode_lawful : bincode.Lawful where
  u8 x y r s h := by simpa [bincode] using h
  str x y r s hx hy h := by
    simp only [bincode, List.append_assoc] at h
    obtain ⟨h1, h2⟩ := leBytes_split (by omega) (by omega) h
    exact append_split h1 h2
  bytes x y r s hx hy h := by
    simp only [bincode, List.append_assoc] at h
    obtain ⟨h1, h2⟩ := leBytes_split (by omega) (by omega) h
    exact append_split h1 h2
  seq m n r s hm hn h := leBytes_split (by omega) (by omega) h
  variant d e i j x y r s hi hj hx hy h := .inl (leBytes_split (by omega) (by omega) h).1
  none_tuple n r s := by simp [bincode]
  u8_ne x := by simp [bincode]
  str_len x := by simp [bincode]
  bytes_len x := by simp [bincode]
  seq_ne n := by simp [bincode, leBytes]
  none_ne := by simp [bincode]
  variant_ne d i x := by simp [bincode, leBytes]

theorem ofNat_inj {m n : Nat} (hm : m < 256) (hn : n < 256) (h : UInt8.ofNat m = UInt8.ofNat n) : m = n := by
  have := congrArg UInt8.toNat h
  simp only [UInt8.toNat_ofNat'] at this
  omega

theorem ofNat_ne {m n : Nat} (hm : m < 256) (hn : n < 256) (h : m ≠ n) : UInt8.ofNat m ≠ UInt8.ofNat n :=
  fun e => h (ofNat_inj hm hn e)

theorem rmpStrLen_split {m n : Nat} {r s : Bytes} (hm : m < 2 ^ 32) (hn : n < 2 ^ 32) (h : rmpStrLen m ++ r = rmpStrLen n ++ s) :
    m = n ∧ r = s := by
  have k1 : (0xd9 : UInt8) = UInt8.ofNat 0xd9 := rfl
  have k2 : (0xda : UInt8) = UInt8.ofNat 0xda := rfl
  have k3 : (0xdb : UInt8) = UInt8.ofNat 0xdb := rfl
  unfold rmpStrLen at h
  rw [k1, k2, k3] at h
  split_ifs at h <;> simp only [List.cons_append, List.nil_append, List.cons.injEq] at h
  all_goals first
    | (exact absurd h.1 (ofNat_ne (by omega) (by omega) (by omega)))
    | (obtain ⟨h1, h2⟩ := h
       first
       | exact ⟨by have := ofNat_inj (by omega) (by omega) h1; omega, h2⟩
       | exact ⟨ofNat_inj (by omega) (by omega) h2.1, h2.2⟩
       | exact beBytes_split (by omega) (by omega) h2)

theorem rmpBinLen_split {m n : Nat} {r s : Bytes} (hm : m < 2 ^ 32) (hn : n < 2 ^ 32) (h : rmpBinLen m ++ r = rmpBinLen n ++ s) :
    m = n ∧ r = s := by
  unfold rmpBinLen at h
  split_ifs at h <;> simp only [List.cons_append, List.nil_append, List.cons.injEq] at h
  all_goals first
    | (exact absurd h.1 (by decide))
    | (obtain ⟨h1, h2⟩ := h
       first
       | exact ⟨ofNat_inj (by omega) (by omega) h2.1, h2.2⟩
       | exact beBytes_split (by omega) (by omega) h2)

theorem rmpArrayLen_split {m n : Nat} {r s : Bytes} (hm : m < 2 ^ 32) (hn : n < 2 ^ 32) (h : rmpArrayLen m ++ r = rmpArrayLen n ++ s) :
    m = n ∧ r = s := by
  have k2 : (0xdc : UInt8) = UInt8.ofNat 0xdc := rfl
  have k3 : (0xdd : UInt8) = UInt8.ofNat 0xdd := rfl
  unfold rmpArrayLen at h
  rw [k2, k3] at h
  split_ifs at h <;> simp only [List.cons_append, List.nil_append, List.cons.injEq] at h
  all_goals first
    | (exact absurd h.1 (ofNat_ne (by omega) (by omega) (by omega)))
    | (obtain ⟨h1, h2⟩ := h
       first
       | exact ⟨by have := ofNat_inj (by omega) (by omega) h1; omega, h2⟩
       | exact beBytes_split (by omega) (by omega) h2)

theorem rmpStrLen_head (n : Nat) : ∃ k t, 0xa0 ≤ k ∧ k < 256 ∧ rmpStrLen n = UInt8.ofNat k :: t := by
  unfold rmpStrLen
  split_ifs with h1 h2 h3
  · exact ⟨0xa0 + n, _, by omega, by omega, rfl⟩
  · exact ⟨0xd9, _, by omega, by omega, rfl⟩
  · exact ⟨0xda, _, by omega, by omega, rfl⟩
  · exact ⟨0xdb, _, by omega, by omega, rfl⟩

theorem rmpArrayLen_head (n : Nat) : ∃ k t, k ≠ 0xc0 ∧ k < 256 ∧ rmpArrayLen n = UInt8.ofNat k :: t := by
  unfold rmpArrayLen
  split_ifs with h1 h2
  · exact ⟨0x90 + n, _, by omega, by omega, rfl⟩
  · exact ⟨0xdc, _, by omega, by omega, rfl⟩
  · exact ⟨0xdd, _, by omega, by omega, rfl⟩

theorem rmp_lawful : rmp.Lawful where
  u8 x y r s h := by
    simp only [rmp] at h
    split_ifs at h with h1 h2 h2 <;> simp only [List.cons_append, List.nil_append, List.cons.injEq] at h
    · exact h
    · obtain ⟨rfl, -⟩ := h; exact absurd h1 (by decide)
    · obtain ⟨rfl, -⟩ := h; exact absurd h2 (by decide)
    · exact h.2
  str x y r s hx hy h := by
    simp only [rmp, List.append_assoc] at h
    obtain ⟨h1, h2⟩ := rmpStrLen_split hx hy h
    exact append_split h1 h2
  bytes x y r s hx hy h := by
    simp only [rmp, List.append_assoc] at h
    obtain ⟨h1, h2⟩ := rmpBinLen_split hx hy h
    exact append_split h1 h2
  seq m n r s hm hn h := rmpArrayLen_split hm hn h
  variant d e i j x y r s hi hj hx hy h := by
    right
    have k1 : (0x81 : UInt8) = UInt8.ofNat 0x81 := rfl
    obtain ⟨a, t, ha1, ha2, ha⟩ := rmpStrLen_head x.length
    obtain ⟨b, u, hb1, hb2, hb⟩ := rmpStrLen_head y.length
    cases d <;> cases e <;> simp only [rmp, if_true, Bool.false_eq_true, if_false, List.cons_append, List.append_assoc] at h
    · obtain ⟨h1, h2⟩ := rmpStrLen_split hx hy h
      exact (append_split h1 h2).1
    · rw [ha, k1, List.cons_append, List.cons.injEq] at h
      exact absurd h.1 (ofNat_ne (by omega) (by omega) (by omega))
    · rw [hb, k1, List.cons_append, List.cons.injEq] at h
      exact absurd h.1 (ofNat_ne (by omega) (by omega) (by omega))
    · obtain ⟨h1, h2⟩ := rmpStrLen_split hx hy (List.cons.inj h).2
      exact (append_split h1 h2).1
  none_tuple n r s h := by
    have k1 : (0xc0 : UInt8) = UInt8.ofNat 0xc0 := rfl
    obtain ⟨a, t, ha1, ha2, ha⟩ := rmpArrayLen_head n
    simp only [rmp, List.nil_append, ha, List.cons_append, k1, List.cons.injEq] at h
    exact absurd h.1 (ofNat_ne (by omega) (by omega) (by omega))
  u8_ne x := by simp only [rmp]; split_ifs <;> simp
  str_len x := by
    obtain ⟨a, t, ha1, ha2, ha⟩ := rmpStrLen_head x.length
    simp only [rmp, ha, List.cons_append, List.length_cons, List.length_append]; omega
  bytes_len x := by simp only [rmp, rmpBinLen]; split_ifs <;> simp
  seq_ne n := by
    obtain ⟨a, t, ha1, ha2, ha⟩ := rmpArrayLen_head n
    simp [rmp, ha]
  none_ne := by simp [rmp]
  variant_ne d i x := by
    obtain ⟨a, t, ha1, ha2, ha⟩ := rmpStrLen_head x.length
    cases d <;> simp [rmp, ha]

theorem decimal_inj {m n : Nat} (h : decimal m = decimal n) : m = n := by
  have key : ∀ k, k ≠ 0 → decimal k ≠ decimal 0 := by
    intro k hk e
    unfold decimal at e
    rw [if_neg hk, if_pos rfl] at e
    have h1 : (Nat.digits 10 k).reverse.map (fun d => UInt8.ofNat (48 + d)) = [48] := e
    have hl := congrArg List.length h1
    simp only [List.length_map, List.length_reverse, List.length_singleton] at hl
    obtain ⟨d, hd⟩ := List.length_eq_one_iff.mp hl
    have hlt : d < 10 := Nat.digits_lt_base (b := 10) (m := k) (by norm_num) (by rw [hd]; simp)
    rw [hd] at h1
    simp only [List.reverse_singleton, List.map_cons, List.map_nil, List.cons.injEq, and_true] at h1
    have : 48 + d = 48 := ofNat_inj (by omega) (by omega) h1
    have hd0 : d = 0 := by omega
    have := Nat.ofDigits_digits 10 k
    rw [hd, hd0] at this
    simp [Nat.ofDigits] at this
    omega
  by_cases hm : m = 0
  · by_cases hn : n = 0
    · omega
    · exact absurd (by rw [← h, hm]) (key n hn)
  by_cases hn : n = 0
  · exact absurd (by rw [h, hn]) (key m hm)
  unfold decimal at h
  rw [if_neg hm, if_neg hn] at h
  have h' : (Nat.digits 10 m).reverse = (Nat.digits 10 n).reverse := by
    have e : ∀ l : List Nat, (∀ d ∈ l, d < 10) → (l.map (fun d => UInt8.ofNat (48 + d))).map (fun x => x.toNat - 48) = l := by
      intro l hl
      rw [List.map_map]
      conv_rhs => rw [← List.map_id l]
      refine List.map_congr_left (fun d hd => ?_)
      have := hl d hd
      simp only [Function.comp_apply, UInt8.toNat_ofNat', id]
      omega
    rw [← e (Nat.digits 10 m).reverse (fun d hd => Nat.digits_lt_base (by norm_num) (List.mem_reverse.mp hd)), h,
      e (Nat.digits 10 n).reverse (fun d hd => Nat.digits_lt_base (by norm_num) (List.mem_reverse.mp hd))]
  exact Nat.digits_inj_iff.mp (List.reverse_injective h')

/-! ### Encodings that can be told from what follows -/

/-- an encoding shorter than `2^32` bytes determines the value and where it ends -/
def Uniq {α : Type} (enc : α → Bytes) : Prop :=
  ∀ a b r s, (enc a).length < 2 ^ 32 → (enc b).length < 2 ^ 32 → enc a ++ r = enc b ++ s → a = b ∧ r = s

/-- no value is written as nothing -/
def NonNil {α : Type} (enc : α → Bytes) : Prop := ∀ a, enc a ≠ []

theorem Uniq.inj {α : Type} {enc : α → Bytes} (hU : Uniq enc) {a b : α} (hl : (enc a).length < 2 ^ 32) (h : enc a = enc b) : a = b :=
  (hU a b [] [] hl (h ▸ hl) (by rw [h])).1

/-- `serialize_bytes` -/
theorem uniq_bytes {F : Format} (hF : F.Lawful) : Uniq F.bytes := fun a b r s ha hb h =>
  hF.bytes a b r s (by have := hF.bytes_len a; omega) (by have := hF.bytes_len b; omega) h

theorem uniq_u8 {F : Format} (hF : F.Lawful) : Uniq F.u8 := fun a b r s _ _ h => hF.u8 a b r s h

/-- `Vec<T>` -/
def serVec {α : Type} (F : Format) (enc : α → Bytes) (l : List α) : Bytes := F.seq l.length ++ l.flatMap enc

/-- `Option<T>` -/
def serOption {α : Type} (F : Format) (enc : α → Bytes) : Option α → Bytes
  | .none => F.none
  | .some a => F.some ++ enc a

theorem length_le_flatMap {α : Type} {enc : α → Bytes} (hN : NonNil enc) (l : List α) : l.length ≤ (l.flatMap enc).length := by
  induction l with
  | nil => simp
  | cons a l ih =>
    have := List.length_pos_of_ne_nil (hN a)
    simp only [List.flatMap_cons, List.length_append, List.length_cons]
    omega

/-- elements one after the other, when their number is known -/
theorem uniq_elements {α : Type} {enc : α → Bytes} (hU : Uniq enc) (l m : List α) (r s : Bytes) (hn : l.length = m.length)
    (hl : (l.flatMap enc).length < 2 ^ 32) (hm : (m.flatMap enc).length < 2 ^ 32)
    (h : l.flatMap enc ++ r = m.flatMap enc ++ s) : l = m ∧ r = s := by
  induction l generalizing m with
  | nil =>
    obtain rfl := List.length_eq_zero_iff.mp hn.symm
    exact ⟨rfl, h⟩
  | cons a l ih =>
    cases m with
    | nil => simp at hn
    | cons b m =>
      simp only [List.flatMap_cons, List.append_assoc, List.length_append] at h hl hm
      obtain ⟨rfl, h1⟩ := hU _ _ _ _ (by omega) (by omega) h
      obtain ⟨rfl, h2⟩ := ih m (by simpa using hn) (by omega) (by omega) h1
      exact ⟨rfl, h2⟩

theorem uniq_vec {F : Format} (hF : F.Lawful) {α : Type} {enc : α → Bytes} (hU : Uniq enc) (hN : NonNil enc) :
    Uniq (serVec F enc) := by
  intro l m r s hl hm h
  simp only [serVec, List.append_assoc, List.length_append] at hl hm h
  have h1 := length_le_flatMap hN l
  have h2 := length_le_flatMap hN m
  obtain ⟨hn, h⟩ := hF.seq _ _ _ _ (by omega) (by omega) h
  exact uniq_elements hU l m r s hn (by omega) (by omega) h

theorem nonNil_vec {F : Format} (hF : F.Lawful) {α : Type} {enc : α → Bytes} : NonNil (serVec F enc) := by
  intro l h
  exact hF.seq_ne _ (List.append_eq_nil_iff.mp h).1

/-- what may stand under an option: something that begins with the head of a tuple or struct -/
def Headed {α : Type} (F : Format) (enc : α → Bytes) : Prop := ∀ a, ∃ n t, enc a = F.tuple n ++ t

theorem uniq_option {F : Format} (hF : F.Lawful) {α : Type} {enc : α → Bytes} (hU : Uniq enc) (hH : Headed F enc) :
    Uniq (serOption F enc) := by
  rintro (_ | a) (_ | b) r s ha hb h
  · exact ⟨rfl, List.append_cancel_left h⟩
  · obtain ⟨n, t, e⟩ := hH b
    simp only [serOption, e, List.append_assoc] at h
    exact absurd h (hF.none_tuple _ _ _)
  · obtain ⟨n, t, e⟩ := hH a
    simp only [serOption, e, List.append_assoc] at h
    exact absurd h.symm (hF.none_tuple _ _ _)
  · simp only [serOption, List.append_assoc, List.length_append] at ha hb h
    obtain ⟨rfl, h1⟩ := hU _ _ _ _ (by omega) (by omega) (List.append_cancel_left h)
    exact ⟨rfl, h1⟩

theorem nonNil_option {F : Format} (hF : F.Lawful) {α : Type} {enc : α → Bytes} (hN : NonNil enc) : NonNil (serOption F enc) := by
  rintro (_ | a) h
  · exact hF.none_ne h
  · exact hN a (List.append_eq_nil_iff.mp h).2

end Verif.Serde
