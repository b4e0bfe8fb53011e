import Verif.Algebra.PointCodec
import Verif.Algebra.CodecProps

/-!
C86: points, keys and serde.  C87: the scalar of an asset type.
-/

namespace Verif.Codec

/-! ### Points on arkworks -/

/-- **Round trip.** The compressed bytes of a point decode to the point. -/
theorem C86_point_roundtrip (C : ArkPoint) (L : C.Laws) (p : C.P) :
    (C.toBytes p).length = C.len ∧ C.fromBytes (C.toBytes p) = .ok p := by
  refine ⟨L.len_ser p, ?_⟩
  have ht : (C.ser p).take C.len = C.ser p := List.take_of_length_le (L.len_ser p).le
  simp only [ArkPoint.fromBytes, ArkPoint.toBytes, ht, L.len_ser p, dite_true, L.de_ser p, Res.ofOption_some]

/-- **Accepted strings.** Decoding never panics, refuses strings that are too short, and reads `COMPRESSED_LEN` bytes: it returns
a point exactly when the string begins with the encoding of this point. -/
theorem C86_point_accepts (C : ArkPoint) (L : C.Laws) (b : Bytes) :
    C.fromBytes b ≠ .panic ∧ (b.length < C.len → C.fromBytes b = .err) ∧
      ∀ p, C.fromBytes b = .ok p ↔ C.toBytes p <+: b := by
  refine ⟨?_, ?_, ?_⟩
  · rw [ArkPoint.fromBytes]
    split
    · cases C.de _ <;> simp
    · simp
  · intro h
    rw [ArkPoint.fromBytes, dif_neg (by rw [List.length_take]; omega)]
  · intro p
    rw [ArkPoint.fromBytes, ArkPoint.toBytes]
    constructor
    · intro h
      split at h
      · rename_i hl
        cases hd : C.de ⟨b.take C.len, hl⟩ with
        | none => rw [hd] at h; cases h
        | some q =>
          rw [hd] at h
          cases h
          have := L.ser_de _ _ hd
          rw [this]
          exact List.take_prefix _ _
      · cases h
    · rintro ⟨t, rfl⟩
      have ht : (C.ser p ++ t).take C.len = C.ser p := by
        rw [List.take_append_of_le_length (L.len_ser p).ge]
        exact List.take_of_length_le (L.len_ser p).le
      simp only [ht, L.len_ser p, dite_true, L.de_ser p, Res.ofOption_some]

/-- **One encoding, the part that holds.** Strings of the right length: the only one that decodes to a point is its encoding. -/
theorem C86_point_canonical_partial (C : ArkPoint) (L : C.Laws) (b : Bytes) (hb : b.length = C.len) (p : C.P)
    (h : C.fromBytes b = .ok p) : b = C.toBytes p := by
  have hp := ((C86_point_accepts C L b).2.2 p).1 h
  exact (hp.eq_of_length (by rw [hb]; exact L.len_ser p)).symm

/-- **One encoding is violated.** Whatever bytes follow the encoding of a point are ignored. -/
theorem C86_point_trailing_violated (C : ArkPoint) (L : C.Laws) (p : C.P) (t : Bytes) :
    C.fromBytes (C.toBytes p ++ t) = .ok p :=
  ((C86_point_accepts C L _).2.2 p).2 ⟨t, rfl⟩

/-- a group with 48-byte points, for the examples: points are the byte strings that begin with 0 -/
def toyPoint : ArkPoint where
  P := { b : Arr 48 // b.1.head? = some 0 }
  len := 48
  ser p := p.1.1
  de b := if h : b.1.head? = some 0 then some ⟨b, h⟩ else none

theorem toyPoint_laws : toyPoint.Laws where
  len_ser p := p.1.2
  de_ser p := by
    show (if h : p.1.1.head? = some 0 then some (⟨⟨p.1.1, p.1.2⟩, h⟩ : { b : Arr 48 // b.1.head? = some 0 }) else none) = some p
    rw [dif_pos p.2]
    rfl
  ser_de b p h := by
    simp only [toyPoint] at h ⊢
    split at h
    · cases h; rfl
    · cases h

example : ∃ b c p, b ≠ c ∧ toyPoint.fromBytes b = .ok p ∧ toyPoint.fromBytes c = .ok p := by
  let p : toyPoint.P := ⟨⟨List.replicate 48 0, by decide⟩, by decide⟩
  refine ⟨toyPoint.toBytes p, toyPoint.toBytes p ++ [1], p, by simp, (C86_point_roundtrip toyPoint toyPoint_laws p).2,
    C86_point_trailing_violated toyPoint toyPoint_laws p [1]⟩

example : toyPoint.fromBytes (List.replicate 48 1) = .err ∧ toyPoint.fromBytes [] = .err := ⟨by rfl, by rfl⟩

/-! ### Points of curve25519-dalek -/

theorem fromSlice_val (c : Arr 32) : fromSlice c.1 = .ok c := dif_pos c.2

/-- **Round trip** of compressed points. -/
theorem C86_compressed_roundtrip (c : Arr 32) :
    (compressedToBytes c).length = 32 ∧ compressedFromBytes (compressedToBytes c) = .ok c := by
  exact ⟨c.2, fromSlice_val c⟩

/-- **Round trip** of Ristretto points. -/
theorem C86_ristretto_roundtrip (D : DalekPoint) (L : D.Laws) (p : D.P) :
    (D.toBytes p).length = 32 ∧ D.fromBytes (D.toBytes p) = .ok p := by
  refine ⟨(D.compress p).2, ?_⟩
  simp only [DalekPoint.fromBytes, DalekPoint.toBytes, fromSlice_val, Res.bind_ok, L.dec_comp, Res.ofOption_some]

/-- **One encoding** of Ristretto points: the only string that decodes to a point is its encoding. -/
theorem C86_ristretto_canonical (D : DalekPoint) (L : D.Laws) (b : Bytes) (p : D.P) :
    D.fromBytes b = .ok p ↔ b = D.toBytes p := by
  constructor
  · intro h
    rw [DalekPoint.fromBytes, fromSlice] at h
    split at h
    · rename_i hl
      rw [Res.bind_ok] at h
      cases hd : D.decompress ⟨b, hl⟩ with
      | none => rw [hd] at h; cases h
      | some q =>
        rw [hd] at h
        cases h
        rw [DalekPoint.toBytes, L.comp_dec _ _ hd]
    · cases h
  · rintro rfl
    exact (C86_ristretto_roundtrip D L p).2

/-- **No panic is violated.** Decoding a compressed point or a Ristretto point panics, and does not return an error, exactly for
the strings of a length other than 32. -/
theorem C86_dalek_panics_violated (D : DalekPoint) (b : Bytes) :
    (compressedFromBytes b = .panic ↔ b.length ≠ 32) ∧ (D.fromBytes b = .panic ↔ b.length ≠ 32) := by
  simp only [compressedFromBytes, DalekPoint.fromBytes, fromSlice]
  by_cases h : b.length = 32
  · simp only [h, dite_true, ne_eq, not_true_eq_false, Res.bind_ok, iff_false]
    refine ⟨by simp, ?_⟩
    cases D.decompress _ <;> simp
  · simp [h]

/-- Ristretto points for the examples: compressed points are points if their first byte is 4 -/
def toyDalek : DalekPoint where
  P := { b : Arr 32 // b.1.head? = some 4 }
  compress p := p.1
  decompress b := if h : b.1.head? = some 4 then some ⟨b, h⟩ else none

theorem toyDalek_laws : toyDalek.Laws where
  dec_comp p := by simp only [toyDalek]; rw [dif_pos p.2]; rfl
  comp_dec c p h := by
    simp only [toyDalek] at h ⊢
    split at h
    · cases h; rfl
    · cases h

example : toyDalek.fromBytes [4] = .panic ∧ toyDalek.fromBytes (List.replicate 32 0) = .err := ⟨by rfl, by rfl⟩

/-- **X25519 keys.** Decoding never panics, refuses fewer than 32 bytes, and keeps the first 32 of the others: trailing bytes are
ignored. -/
theorem C86_x25519 (b : Bytes) :
    (b.length < 32 → x25519FromBytes b = .err) ∧
      (32 ≤ b.length → ∃ k : Arr 32, x25519FromBytes b = .ok k ∧ k.1 <+: b) := by
  refine ⟨fun h => by rw [x25519FromBytes, if_pos h], fun h => ?_⟩
  have hl : (b.take 32).length = 32 := by rw [List.length_take]; omega
  exact ⟨⟨b.take 32, hl⟩, by rw [x25519FromBytes, if_neg (by omega), dif_pos hl], List.take_prefix _ _⟩

/-! ### Serde -/

/-- **Round trip.** What is written in a human-readable or in a binary format is read back, provided base64 decodes what it
encodes and the bytes of the object decode to it; human-readable formats hold text and only they do. -/
theorem C86_serde_roundtrip {T : Type} (enc : Bytes → List Char) (dec : List Char → Option Bytes) (toB : T → Bytes)
    (fromB : Bytes → Res T) (hb64 : ∀ b, dec (enc b) = some b) (hbytes : ∀ x, fromB (toB x) = .ok x) (hr : Bool) (x : T) :
    deserialize dec fromB (serialize enc toB hr x) = .ok x ∧ ((∃ s, serialize enc toB hr x = .text s) ↔ hr = true) := by
  cases hr <;> simp [serialize, deserialize, visit, hb64, hbytes]

/-- the two forms of one object decode alike, so do sequences of bytes: what is read depends on the bytes alone -/
theorem C86_serde_same {T : Type} (enc : Bytes → List Char) (dec : List Char → Option Bytes) (fromB : Bytes → Res T)
    (hb64 : ∀ b, dec (enc b) = some b) (b : Bytes) :
    deserialize dec fromB (.text (enc b)) = fromB b ∧ deserialize dec fromB (.bytes b) = fromB b ∧
      deserialize dec fromB (.seq b) = fromB b := by
  simp [deserialize, visit, hb64]

/-- **No panic is violated.** Reading a compressed point from a byte string of a wrong length panics in every format, in text
whenever the text is base64 of such a string; reading a scalar or an arkworks point does not panic. -/
theorem C86_serde_panics_violated (enc : Bytes → List Char) (dec : List Char → Option Bytes) (hb64 : ∀ b, dec (enc b) = some b)
    (b : Bytes) (hb : b.length ≠ 32) (A : Ark) (C : ArkPoint) (w : Wire) :
    deserialize dec compressedFromBytes (.bytes b) = .panic ∧ deserialize dec compressedFromBytes (.text (enc b)) = .panic ∧
      deserialize dec A.fromBytes w ≠ .panic ∧ deserialize dec rFromBytes w ≠ .panic ∧
      deserialize dec C.fromBytes w ≠ .panic := by
  have h := ((C86_dalek_panics_violated toyDalek b).1).2 hb
  have hv : ∀ w, (∃ c, visit dec w = .ok c) ∨ visit dec w = .err := by
    intro w
    cases w with
    | text s => cases hd : dec s <;> simp [visit, hd]
    | bytes b => exact Or.inl ⟨b, rfl⟩
    | seq b => exact Or.inl ⟨b, rfl⟩
  refine ⟨by rw [(C86_serde_same enc dec _ hb64 b).2.1, h], by rw [(C86_serde_same enc dec _ hb64 b).1, h], ?_, ?_, ?_⟩
  · rcases hv w with ⟨c, hc⟩ | hc
    · rw [deserialize, hc, Res.bind_ok, Ark.fromBytes]; split <;> simp
    · rw [deserialize, hc]; simp
  · rcases hv w with ⟨c, hc⟩ | hc
    · rw [deserialize, hc, Res.bind_ok, rFromBytes]; split <;> simp
    · rw [deserialize, hc]; simp
  · rcases hv w with ⟨c, hc⟩ | hc
    · rw [deserialize, hc, Res.bind_ok, ArkPoint.fromBytes]
      split
      · cases C.de _ <;> simp
      · simp
    · rw [deserialize, hc]; simp

/-- a text encoding for the examples: one character per byte -/
def toyEnc (b : Bytes) : List Char := b.map (fun x => Char.ofNat x.toNat)

/-- its inverse -/
def toyDec (s : List Char) : Option Bytes := some (s.map (fun c => UInt8.ofNat c.toNat))

theorem toyDec_enc (b : Bytes) : toyDec (toyEnc b) = some b := by
  simp only [toyDec, toyEnc, List.map_map, Option.some.injEq]
  conv_rhs => rw [← List.map_id b]
  apply List.map_congr_left
  intro x _
  have hx : x.toNat < 256 := x.toNat_lt
  have hall : ∀ n < 256, (Char.ofNat n).toNat = n := by decide +kernel
  have : (Char.ofNat x.toNat).toNat = x.toNat := hall _ hx
  simp [this]

example : deserialize toyDec toyDalek.fromBytes (serialize toyEnc toyDalek.toBytes true ⟨⟨4 :: List.replicate 31 0, by decide⟩, by decide⟩) =
    .ok ⟨⟨4 :: List.replicate 31 0, by decide⟩, by decide⟩ :=
  (C86_serde_roundtrip toyEnc toyDec _ _ toyDec_enc (fun x => (C86_ristretto_roundtrip toyDalek toyDalek_laws x).2) true _).1

example : deserialize toyDec compressedFromBytes (.text (toyEnc [1, 2])) = .panic :=
  (C86_serde_panics_violated toyEnc toyDec toyDec_enc [1, 2] (by decide) bls toyPoint (.seq [])).2.1

/-! ### The scalar of an asset type -/

/-- the number that stands for an asset type: the first 30 bytes of its hash, little-endian -/
def typeNumber {T : Type} (sha : T → Arr 32) (t : T) : Nat := ofLE ((sha t).1.take 30)

theorem typeNumber_lt {T : Type} (sha : T → Arr 32) (t : T) : typeNumber sha t < 2 ^ 240 := by
  have h := ofLE_lt ((sha t).1.take 30)
  rw [List.length_take, (sha t).2] at h
  exact lt_of_lt_of_le h (by norm_num)

theorem zeiRepr_length {T : Type} (sha : T → Arr 32) (t : T) : (zeiRepr sha t).length = 32 := by
  simp [zeiRepr, (sha t).2]

theorem ofLE_zeiRepr {T : Type} (sha : T → Arr 32) (t : T) : ofLE (zeiRepr sha t) = typeNumber sha t := by
  rw [zeiRepr, show ([0, 0] : Bytes) = List.replicate 2 0 from rfl, ofLE_pad, typeNumber]

/-- **One number in every field.** For the four types on arkworks and for Ristretto the conversion neither fails nor panics, and
the scalar is the same integer below `2^240`, not reduced by any of the orders. -/
theorem C87_same_number {T : Type} (sha : T → Arr 32) (t : T) :
    (∀ A ∈ [bls, jubjub, secp, secq], ∃ x, asScalar sha 32 A.fromBytes t = .ok x ∧ x.val = typeNumber sha t) ∧
    ∃ x, asScalar sha 32 rFromBytes t = .ok x ∧ x.1 = typeNumber sha t ∧ x.1 < ristSize := by
  have hl := zeiRepr_length sha t
  have hn := typeNumber_lt sha t
  refine ⟨?_, ?_⟩
  · intro A hA
    have hf : A.Fits ∧ 2 ^ 240 ≤ A.q := by
      simp only [List.mem_cons, List.not_mem_nil, or_false] at hA
      rcases hA with rfl | rfl | rfl | rfl
      · exact ⟨bls_fits, by decide +kernel⟩
      · exact ⟨jubjub_fits, by decide +kernel⟩
      · exact ⟨secp_fits, by decide +kernel⟩
      · exact ⟨secq_fits, by decide +kernel⟩
    obtain ⟨x, hx, hv⟩ := (C85_scalar_accepts hf.1 (zeiRepr sha t)).1 hl.le
    refine ⟨x, by rw [asScalar, if_pos rfl, hx]; rfl, ?_⟩
    rw [hv, ofLE_zeiRepr, Nat.mod_eq_of_lt (lt_of_lt_of_le hn hf.2)]
  · obtain ⟨x, hx, hv⟩ := (C85_ristretto_accepts (zeiRepr sha t)).1 hl.le
    have hv' : x.1 = typeNumber sha t := by
      rw [hv, ofLE_zeiRepr, Nat.mod_eq_of_lt (lt_trans hn (by norm_num))]
    exact ⟨x, by rw [asScalar, if_pos rfl, hx]; rfl, hv', by rw [hv']; exact lt_trans hn (by decide +kernel)⟩

/-- **Different types, different scalars, up to the hash.** In each of the five fields two asset types have the same scalar exactly
when the first 30 bytes of their hashes agree. -/
theorem C87_injective {T : Type} (sha : T → Arr 32) (t u : T) :
    (∀ A ∈ [bls, jubjub, secp, secq],
      asScalar sha 32 A.fromBytes t = asScalar sha 32 A.fromBytes u ↔ (sha t).1.take 30 = (sha u).1.take 30) ∧
    (asScalar sha 32 rFromBytes t = asScalar sha 32 rFromBytes u ↔ (sha t).1.take 30 = (sha u).1.take 30) := by
  have hnum : typeNumber sha t = typeNumber sha u → (sha t).1.take 30 = (sha u).1.take 30 := by
    intro h
    exact ofLE_inj (by simp [(sha t).2, (sha u).2]) h
  have hrepr : (sha t).1.take 30 = (sha u).1.take 30 → zeiRepr sha t = zeiRepr sha u := by
    intro h
    rw [zeiRepr, zeiRepr, h]
  refine ⟨?_, ?_⟩
  · intro A hA
    constructor
    · intro h
      obtain ⟨x, hx, hv⟩ := (C87_same_number sha t).1 A hA
      obtain ⟨y, hy, hw⟩ := (C87_same_number sha u).1 A hA
      rw [hx, hy] at h
      cases h
      exact hnum (by rw [← hv, ← hw])
    · intro h
      rw [asScalar, asScalar, hrepr h]
  · constructor
    · intro h
      obtain ⟨x, hx, hv, _⟩ := (C87_same_number sha t).2
      obtain ⟨y, hy, hw, _⟩ := (C87_same_number sha u).2
      rw [hx, hy] at h
      cases h
      exact hnum (by rw [← hv, ← hw])
    · intro h
      rw [asScalar, asScalar, hrepr h]

/-- **The other branch always panics.** For a scalar type of any other width, on which the code is written to work, 32 bytes are
copied into a slice of 30 (or the slice does not exist): a panic for every asset type. -/
theorem C87_other_width_panics {T S : Type} (sha : T → Arr 32) (n : Nat) (hn : n ≠ 32) (fromB : Bytes → Res S) (t : T) :
    asScalar sha n fromB t = .panic := by
  rw [asScalar, if_neg (Ne.symm hn)]
  simp only [slice, List.length_replicate, Nat.zero_le, true_and]
  split
  · rw [Res.bind_ok, copyFromSlice, if_neg ?_, Res.bind_panic]
    rw [zeiRepr_length, List.length_take, List.drop_zero, List.length_replicate]
    omega
  · rfl

/-- a hash for the examples: the string itself -/
def idHash (b : Arr 32) : Arr 32 := b

example : ∃ t u : Arr 32, asScalar idHash 32 bls.fromBytes t ≠ asScalar idHash 32 bls.fromBytes u := by
  refine ⟨⟨List.replicate 32 1, by decide⟩, ⟨List.replicate 32 2, by decide⟩, fun h => ?_⟩
  have := ((C87_injective idHash _ _).1 bls (by simp)).1 h
  exact absurd this (by decide)

/-- the two last bytes of the hash are dropped, so they are not bound -/
example : asScalar idHash 32 secq.fromBytes ⟨List.replicate 32 1, by decide⟩ =
    asScalar idHash 32 secq.fromBytes ⟨List.replicate 30 1 ++ [7, 7], by decide⟩ :=
  ((C87_injective idHash _ _).1 secq (by simp)).2 (by decide)

end Verif.Codec
