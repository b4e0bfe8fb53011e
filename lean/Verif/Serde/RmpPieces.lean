import Verif.Serde.Read

/-!
C98: which bytes the reader of MessagePack takes for a number, for the head of an array, for a string and for a byte string.  The
spellings are those of the MessagePack specification; everything else is refused.
-/

namespace Verif.Serde

theorem rbind_ok {α β : Type} {x : Reader α} {f : α → Reader β} {s r : Bytes} {b : β} :
    (x >>= f) s = .ok (b, r) ↔ ∃ a t, x s = .ok (a, t) ∧ f a t = .ok (b, r) := by
  change (x s >>= fun p => f p.1 p.2) = _ ↔ _
  rw [Res.bind_eq_ok]
  constructor
  · rintro ⟨⟨a, t⟩, h1, h2⟩
    exact ⟨a, t, h1, h2⟩
  · rintro ⟨a, t, h1, h2⟩
    exact ⟨(a, t), h1, h2⟩

theorem rpure_ok {α : Type} {a b : α} {s r : Bytes} : (pure a : Reader α) s = .ok (b, r) ↔ a = b ∧ s = r := by
  rw [pure_of]
  constructor
  · intro h
    cases h
    exact ⟨rfl, rfl⟩
  · rintro ⟨rfl, rfl⟩
    rfl

theorem refuse_ok {α : Type} {b : α} {s r : Bytes} : (refuse : Reader α) s = .ok (b, r) ↔ False :=
  ⟨(by intro h; cases h), False.elim⟩

theorem lift_ok_iff {α : Type} {x : Res α} {a : α} {s r : Bytes} : lift x s = .ok (a, r) ↔ x = .ok a ∧ s = r := by
  simp only [lift, Res.bind_eq_ok]
  constructor
  · rintro ⟨b, h1, h2⟩
    cases h2
    exact ⟨h1, rfl⟩
  · rintro ⟨h1, rfl⟩
    exact ⟨a, h1, rfl⟩

theorem takeBytes_ok {n : Nat} {s a r : Bytes} : takeBytes n s = .ok (a, r) ↔ a.length = n ∧ s = a ++ r := by
  simp only [takeBytes]
  constructor
  · intro h
    split_ifs at h with h1
    cases h
    exact ⟨by rw [List.length_take]; omega, (List.take_append_drop n s).symm⟩
  · rintro ⟨rfl, rfl⟩
    exact takeBytes_append a r

theorem nextByte_ok {s r : Bytes} {b : UInt8} : nextByte s = .ok (b, r) ↔ s = b :: r := by
  cases s with
  | nil => exact ⟨(by intro h; cases h), (by intro h; cases h)⟩
  | cons c t =>
    rw [nextByte_cons]
    constructor
    · intro h
      cases h
      rfl
    · intro h
      cases h
      rfl

theorem readBE_ok {w n : Nat} {s r : Bytes} : readBE w s = .ok (n, r) ↔ ∃ b : Bytes, b.length = w ∧ ofBE b = n ∧ s = b ++ r := by
  simp only [readBE, rbind_ok, takeBytes_ok, rpure_ok]
  constructor
  · rintro ⟨a, t, ⟨h1, h2⟩, h3, rfl⟩
    exact ⟨a, h1, h3, h2⟩
  · rintro ⟨b, h1, h2, h3⟩
    exact ⟨b, r, ⟨h1, h3⟩, h2, rfl⟩

theorem readLE_ok {w n : Nat} {s r : Bytes} : readLE w s = .ok (n, r) ↔ ∃ b : Bytes, b.length = w ∧ ofLE b = n ∧ s = b ++ r := by
  simp only [readLE, rbind_ok, takeBytes_ok, rpure_ok]
  constructor
  · rintro ⟨a, t, ⟨h1, h2⟩, h3, rfl⟩
    exact ⟨a, h1, h3, h2⟩
  · rintro ⟨b, h1, h2, h3⟩
    exact ⟨b, r, ⟨h1, h3⟩, h2, rfl⟩

/-! ### The specification -/

/-- spellings of the unsigned numbers: `positive fixint`, `uint 8`, `uint 16`, `uint 32`, `uint 64` -/
inductive RmpNumber : Nat → Bytes → Prop
  | fix (m : UInt8) (h : m.toNat ≤ 0x7f) : RmpNumber m.toNat [m]
  | u8 (b : Bytes) (h : b.length = 1) : RmpNumber (ofBE b) (0xcc :: b)
  | u16 (b : Bytes) (h : b.length = 2) : RmpNumber (ofBE b) (0xcd :: b)
  | u32 (b : Bytes) (h : b.length = 4) : RmpNumber (ofBE b) (0xce :: b)
  | u64 (b : Bytes) (h : b.length = 8) : RmpNumber (ofBE b) (0xcf :: b)

/-- heads of arrays: `fixarray`, `array 16`, `array 32` -/
inductive RmpArray : Nat → Bytes → Prop
  | fix (m : UInt8) (h : 0x90 ≤ m.toNat ∧ m.toNat ≤ 0x9f) : RmpArray (m.toNat - 0x90) [m]
  | a16 (b : Bytes) (h : b.length = 2) : RmpArray (ofBE b) (0xdc :: b)
  | a32 (b : Bytes) (h : b.length = 4) : RmpArray (ofBE b) (0xdd :: b)

/-- heads of strings: `fixstr`, `str 8`, `str 16`, `str 32` -/
inductive RmpString : Nat → Bytes → Prop
  | fix (m : UInt8) (h : 0xa0 ≤ m.toNat ∧ m.toNat ≤ 0xbf) : RmpString (m.toNat - 0xa0) [m]
  | s8 (b : Bytes) (h : b.length = 1) : RmpString (ofBE b) (0xd9 :: b)
  | s16 (b : Bytes) (h : b.length = 2) : RmpString (ofBE b) (0xda :: b)
  | s32 (b : Bytes) (h : b.length = 4) : RmpString (ofBE b) (0xdb :: b)

/-- heads of byte strings: `bin 8`, `bin 16`, `bin 32` -/
inductive RmpBin : Nat → Bytes → Prop
  | b8 (b : Bytes) (h : b.length = 1) : RmpBin (ofBE b) (0xc4 :: b)
  | b16 (b : Bytes) (h : b.length = 2) : RmpBin (ofBE b) (0xc5 :: b)
  | b32 (b : Bytes) (h : b.length = 4) : RmpBin (ofBE b) (0xc6 :: b)

theorem rmpInt_ok {bound n : Nat} {s r : Bytes} :
    rmpInt bound s = .ok (n, r) ↔ n < bound ∧ ∃ t, RmpNumber n t ∧ s = t ++ r := by
  unfold rmpInt
  simp only [rbind_ok, nextByte_ok]
  constructor
  · rintro ⟨m, t, rfl, k, t2, h2, h3⟩
    split_ifs at h3 with hb
    · obtain ⟨rfl, rfl⟩ := rpure_ok.mp h3
      refine ⟨hb, ?_⟩
      split_ifs at h2 with h1 h4 h5 h6 h7
      · obtain ⟨rfl, rfl⟩ := rpure_ok.mp h2
        exact ⟨[m], .fix m (by omega), rfl⟩
      · obtain ⟨b, hl, rfl, rfl⟩ := readBE_ok.mp h2
        subst h4
        exact ⟨_, .u8 b hl, rfl⟩
      · obtain ⟨b, hl, rfl, rfl⟩ := readBE_ok.mp h2
        subst h5
        exact ⟨_, .u16 b hl, rfl⟩
      · obtain ⟨b, hl, rfl, rfl⟩ := readBE_ok.mp h2
        subst h6
        exact ⟨_, .u32 b hl, rfl⟩
      · obtain ⟨b, hl, rfl, rfl⟩ := readBE_ok.mp h2
        subst h7
        exact ⟨_, .u64 b hl, rfl⟩
      · exact (refuse_ok.mp h2).elim
    · exact (refuse_ok.mp h3).elim
  · rintro ⟨hb, t, ht, rfl⟩
    cases ht with
    | fix m h => exact ⟨m, r, rfl, m.toNat, r, by rw [if_pos (by omega), pure_of], by rw [if_pos hb, pure_of]⟩
    | u8 b h =>
      exact ⟨0xcc, b ++ r, rfl, ofBE b, r, by rw [if_neg (by decide), if_pos rfl]; exact readBE_ok.mpr ⟨b, h, rfl, rfl⟩, by rw [if_pos hb, pure_of]⟩
    | u16 b h =>
      exact ⟨0xcd, b ++ r, rfl, ofBE b, r, by
        rw [if_neg (by decide), if_neg (by decide), if_pos rfl]; exact readBE_ok.mpr ⟨b, h, rfl, rfl⟩, by rw [if_pos hb, pure_of]⟩
    | u32 b h =>
      exact ⟨0xce, b ++ r, rfl, ofBE b, r, by
        rw [if_neg (by decide), if_neg (by decide), if_neg (by decide), if_pos rfl]; exact readBE_ok.mpr ⟨b, h, rfl, rfl⟩,
        by rw [if_pos hb, pure_of]⟩
    | u64 b h =>
      exact ⟨0xcf, b ++ r, rfl, ofBE b, r, by
        rw [if_neg (by decide), if_neg (by decide), if_neg (by decide), if_neg (by decide), if_pos rfl]
        exact readBE_ok.mpr ⟨b, h, rfl, rfl⟩, by rw [if_pos hb, pure_of]⟩

/-- C98: The reader takes for a byte, for a `u32` and for a `u64` the spellings of the numbers of that type, and nothing else: a number
that does not fit is refused and never cut. -/
theorem C98_messagepack_numbers (s r : Bytes) (a : UInt8) (b : UInt32) (c : UInt64) :
    (rmpIn.u8 s = .ok (a, r) ↔ ∃ t, RmpNumber a.toNat t ∧ s = t ++ r) ∧
      (rmpIn.u32 s = .ok (b, r) ↔ ∃ t, RmpNumber b.toNat t ∧ s = t ++ r) ∧
      (rmpIn.u64 s = .ok (c, r) ↔ ∃ t, RmpNumber c.toNat t ∧ s = t ++ r) := by
  refine ⟨?_, ?_, ?_⟩
  · simp only [rmpIn, rmpU8, rbind_ok, rmpInt_ok, rpure_ok]
    constructor
    · rintro ⟨n, t, ⟨hn, x, hx, hs⟩, rfl, rfl⟩
      exact ⟨x, by rwa [toNat_ofNat hn], hs⟩
    · rintro ⟨x, hx, hs⟩
      exact ⟨a.toNat, r, ⟨a.toNat_lt, x, hx, hs⟩, UInt8.ofNat_toNat, rfl⟩
  · simp only [rmpIn, rbind_ok, rmpInt_ok, rpure_ok]
    constructor
    · rintro ⟨n, t, ⟨hn, x, hx, hs⟩, rfl, rfl⟩
      exact ⟨x, by rwa [UInt32.toNat_ofNat_of_lt' hn], hs⟩
    · rintro ⟨x, hx, hs⟩
      exact ⟨b.toNat, r, ⟨b.toNat_lt, x, hx, hs⟩, UInt32.ofNat_toNat, rfl⟩
  · simp only [rmpIn, rbind_ok, rmpInt_ok, rpure_ok]
    constructor
    · rintro ⟨n, t, ⟨hn, x, hx, hs⟩, rfl, rfl⟩
      exact ⟨x, by rwa [UInt64.toNat_ofNat_of_lt' hn], hs⟩
    · rintro ⟨x, hx, hs⟩
      exact ⟨c.toNat, r, ⟨c.toNat_lt, x, hx, hs⟩, UInt64.ofNat_toNat, rfl⟩

/-- `300` is not a byte, `5` is one in each of its five spellings -/
example : (∀ a r, rmpIn.u8 [0xcd, 1, 44] ≠ .ok (a, r)) ∧ rmpIn.u8 [5, 9] = .ok (5, [9]) ∧ rmpIn.u8 [0xcd, 0, 5, 9] = .ok (5, [9]) := by
  refine ⟨fun a r h => ?_, ((C98_messagepack_numbers [5, 9] [9] 5 0 0).1).2 ⟨[5], .fix 5 (by decide), rfl⟩,
    ((C98_messagepack_numbers _ [9] 5 0 0).1).2 ⟨[0xcd, 0, 5], .u16 [0, 5] rfl, rfl⟩⟩
  exact absurd h (by cases h)

theorem rmpArrayHead_ok {n : Nat} {s r : Bytes} : rmpArrayHead s = .ok (n, r) ↔ ∃ t, RmpArray n t ∧ s = t ++ r := by
  unfold rmpArrayHead
  simp only [rbind_ok, nextByte_ok]
  constructor
  · rintro ⟨m, t, rfl, h2⟩
    split_ifs at h2 with h1 h4 h5
    · obtain ⟨rfl, rfl⟩ := rpure_ok.mp h2
      exact ⟨[m], .fix m (by omega), rfl⟩
    · obtain ⟨b, hl, rfl, rfl⟩ := readBE_ok.mp h2
      subst h4
      exact ⟨_, .a16 b hl, rfl⟩
    · obtain ⟨b, hl, rfl, rfl⟩ := readBE_ok.mp h2
      subst h5
      exact ⟨_, .a32 b hl, rfl⟩
    · exact (refuse_ok.mp h2).elim
  · rintro ⟨t, ht, rfl⟩
    cases ht with
    | fix m h => exact ⟨m, r, rfl, by rw [if_pos (by omega), pure_of]⟩
    | a16 b h => exact ⟨0xdc, b ++ r, rfl, by rw [if_neg (by decide), if_pos rfl]; exact readBE_ok.mpr ⟨b, h, rfl, rfl⟩⟩
    | a32 b h =>
      exact ⟨0xdd, b ++ r, rfl, by rw [if_neg (by decide), if_neg (by decide), if_pos rfl]; exact readBE_ok.mpr ⟨b, h, rfl, rfl⟩⟩

/-- C98: A sequence starts with the head of an array; a structure with `n` fields starts with the head of an array of `n`. -/
theorem C98_messagepack_arrays (s r : Bytes) (n : Nat) :
    (rmpIn.seq s = .ok (n, r) ↔ ∃ t, RmpArray n t ∧ s = t ++ r) ∧
      (rmpIn.tuple n s = .ok ((), r) ↔ ∃ t, RmpArray n t ∧ s = t ++ r) := by
  refine ⟨rmpArrayHead_ok, ?_⟩
  simp only [rmpIn, rbind_ok]
  constructor
  · rintro ⟨m, t, h1, h2⟩
    split_ifs at h2 with hm
    · obtain ⟨-, rfl⟩ := rpure_ok.mp h2
      subst hm
      exact rmpArrayHead_ok.mp h1
    · exact (refuse_ok.mp h2).elim
  · intro h
    exact ⟨n, r, rmpArrayHead_ok.mpr h, by rw [if_pos rfl, pure_of]⟩

/-- three elements follow; a short string is no array -/
example : rmpIn.seq [0x93, 1, 2, 3] = .ok (3, [1, 2, 3]) ∧ ∀ n r, rmpIn.seq [0xa3, 1, 2, 3] ≠ .ok (n, r) := by
  refine ⟨((C98_messagepack_arrays _ [1, 2, 3] 3).1).2 ⟨[0x93], .fix 0x93 (by decide), rfl⟩, fun n r h => ?_⟩
  cases h

/-- C98: A string is a head of a string and as many bytes; a byte string is a head of a byte string and as many bytes. -/
theorem C98_messagepack_strings (s r a : Bytes) :
    (rmpIn.str s = .ok (a, r) ↔ ∃ t, RmpString a.length t ∧ s = t ++ (a ++ r)) ∧
      (rmpIn.bytes s = .ok (a, r) ↔ ∃ t, RmpBin a.length t ∧ s = t ++ (a ++ r)) := by
  constructor
  · simp only [rmpIn, rmpStr, rmpStrHead, rbind_ok, nextByte_ok, takeBytes_ok]
    constructor
    · rintro ⟨n, u, ⟨m, t, rfl, h2⟩, rfl, rfl⟩
      split_ifs at h2 with h1 h4 h5 h6
      · obtain ⟨hn, rfl⟩ := rpure_ok.mp h2
        exact ⟨[m], hn ▸ RmpString.fix m (by omega), rfl⟩
      · obtain ⟨b, hl, hn, rfl⟩ := readBE_ok.mp h2
        subst h4
        exact ⟨0xd9 :: b, hn ▸ RmpString.s8 b hl, rfl⟩
      · obtain ⟨b, hl, hn, rfl⟩ := readBE_ok.mp h2
        subst h5
        exact ⟨0xda :: b, hn ▸ RmpString.s16 b hl, rfl⟩
      · obtain ⟨b, hl, hn, rfl⟩ := readBE_ok.mp h2
        subst h6
        exact ⟨0xdb :: b, hn ▸ RmpString.s32 b hl, rfl⟩
      · exact (refuse_ok.mp h2).elim
    · rintro ⟨t, ht, rfl⟩
      refine ⟨a.length, a ++ r, ?_, rfl, rfl⟩
      generalize a.length = n at ht
      cases ht with
      | fix m h => exact ⟨m, a ++ r, rfl, by rw [if_pos (by omega), pure_of]⟩
      | s8 b h => exact ⟨0xd9, b ++ (a ++ r), rfl, by rw [if_neg (by decide), if_pos rfl]; exact readBE_ok.mpr ⟨b, h, rfl, rfl⟩⟩
      | s16 b h =>
        exact ⟨0xda, b ++ (a ++ r), rfl, by
          rw [if_neg (by decide), if_neg (by decide), if_pos rfl]; exact readBE_ok.mpr ⟨b, h, rfl, rfl⟩⟩
      | s32 b h =>
        exact ⟨0xdb, b ++ (a ++ r), rfl, by
          rw [if_neg (by decide), if_neg (by decide), if_neg (by decide), if_pos rfl]; exact readBE_ok.mpr ⟨b, h, rfl, rfl⟩⟩
  · simp only [rmpIn, rmpBinHead, rbind_ok, nextByte_ok, takeBytes_ok]
    constructor
    · rintro ⟨n, u, ⟨m, t, rfl, h2⟩, rfl, rfl⟩
      split_ifs at h2 with h4 h5 h6
      · obtain ⟨b, hl, hn, rfl⟩ := readBE_ok.mp h2
        subst h4
        exact ⟨0xc4 :: b, hn ▸ RmpBin.b8 b hl, rfl⟩
      · obtain ⟨b, hl, hn, rfl⟩ := readBE_ok.mp h2
        subst h5
        exact ⟨0xc5 :: b, hn ▸ RmpBin.b16 b hl, rfl⟩
      · obtain ⟨b, hl, hn, rfl⟩ := readBE_ok.mp h2
        subst h6
        exact ⟨0xc6 :: b, hn ▸ RmpBin.b32 b hl, rfl⟩
      · exact (refuse_ok.mp h2).elim
    · rintro ⟨t, ht, rfl⟩
      refine ⟨a.length, a ++ r, ?_, rfl, rfl⟩
      generalize a.length = n at ht
      cases ht with
      | b8 b h => exact ⟨0xc4, b ++ (a ++ r), rfl, by rw [if_pos rfl]; exact readBE_ok.mpr ⟨b, h, rfl, rfl⟩⟩
      | b16 b h => exact ⟨0xc5, b ++ (a ++ r), rfl, by rw [if_neg (by decide), if_pos rfl]; exact readBE_ok.mpr ⟨b, h, rfl, rfl⟩⟩
      | b32 b h =>
        exact ⟨0xc6, b ++ (a ++ r), rfl, by
          rw [if_neg (by decide), if_neg (by decide), if_pos rfl]; exact readBE_ok.mpr ⟨b, h, rfl, rfl⟩⟩

/-- the same two bytes with a head of a byte string, with a longer head, and as a string -/
example : rmpIn.bytes [0xc4, 2, 7, 8, 9] = .ok ([7, 8], [9]) ∧ rmpIn.bytes [0xc5, 0, 2, 7, 8, 9] = .ok ([7, 8], [9]) ∧
    rmpIn.str [0xa2, 7, 8, 9] = .ok ([7, 8], [9]) :=
  ⟨((C98_messagepack_strings _ [9] [7, 8]).2).2 ⟨[0xc4, 2], .b8 [2] rfl, rfl⟩,
    ((C98_messagepack_strings _ [9] [7, 8]).2).2 ⟨[0xc5, 0, 2], .b16 [0, 2] rfl, rfl⟩,
    ((C98_messagepack_strings _ [9] [7, 8]).1).2 ⟨[0xa2], .fix 0xa2 (by decide), rfl⟩⟩

end Verif.Serde
