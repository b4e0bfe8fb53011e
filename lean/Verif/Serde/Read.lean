import Verif.Res
import Verif.Serde.Format

/-!
Reading: the part of `serde::Deserializer` that the notes use, for the two formats, and what it takes to read back what was written.
-/

namespace Verif.Serde

/-- reads a value from the front of the input -/
def Reader (α : Type) : Type := Bytes → Res (α × Bytes)

instance : Monad Reader where
  pure a := fun s => .ok (a, s)
  bind x f := fun s => x s >>= fun p => f p.1 p.2

theorem bind_of {α β : Type} {x : Reader α} {f : α → Reader β} {s t : Bytes} {a : α} (h : x s = .ok (a, t)) : (x >>= f) s = f a t := by
  change (x s >>= fun p => f p.1 p.2) = _
  rw [h]
  rfl

theorem pure_of {α : Type} (a : α) (s : Bytes) : (pure a : Reader α) s = .ok (a, s) := rfl

/-- a call that does not read -/
def lift {α : Type} (x : Res α) : Reader α := fun s => x >>= fun a => .ok (a, s)

theorem lift_ok {α : Type} {x : Res α} {a : α} (h : x = .ok a) (s : Bytes) : lift x s = .ok (a, s) := by rw [h]; rfl

/-- gives up -/
def refuse {α : Type} : Reader α := fun _ => .err

/-- the first `n` bytes -/
def takeBytes (n : Nat) : Reader Bytes := fun s => if s.length < n then .err else .ok (s.take n, s.drop n)

theorem takeBytes_append (a r : Bytes) : takeBytes a.length (a ++ r) = .ok (a, r) := by
  simp [takeBytes]

/-- the first byte -/
def nextByte : Reader UInt8 := fun s => match s with
  | [] => .err
  | b :: t => .ok (b, t)

theorem nextByte_cons (b : UInt8) (t : Bytes) : nextByte (b :: t) = .ok (b, t) := rfl

/-- what an untagged enum keeps of a value before it tries its variants (`serde::__private::de::Content`) -/
inductive Content where
  | unit
  | str (s : Bytes)
  | bytes (b : Bytes)
  | ints (l : Bytes)

/-- The part of `serde::Deserializer` that the notes use. -/
structure Input where
  /-- `deserialize_u8` -/
  u8 : Reader UInt8
  /-- `deserialize_u32` -/
  u32 : Reader UInt32
  /-- `deserialize_u64` -/
  u64 : Reader UInt64
  /-- `deserialize_str` -/
  str : Reader Bytes
  /-- `deserialize_bytes` -/
  bytes : Reader Bytes
  /-- `deserialize_option`: whether a value follows -/
  opt : Reader Bool
  /-- head of `deserialize_seq` -/
  seq : Reader Nat
  /-- head of `deserialize_tuple` and `deserialize_struct` -/
  tuple : Nat → Reader Unit
  /-- `deserialize_unit_struct` -/
  unitStruct : Reader Unit
  /-- head of `deserialize_enum`, for the names of the variants and whether they have data: the number of the variant -/
  variant : List (Bytes × Bool) → Reader Nat
  /-- `deserialize_any` -/
  any : Reader Content

/-- a little-endian integer of `w` bytes -/
def readLE (w : Nat) : Reader Nat := do
  let b ← takeBytes w
  pure (ofLE b)

/-- a big-endian integer of `w` bytes -/
def readBE (w : Nat) : Reader Nat := do
  let b ← takeBytes w
  pure (ofBE b)

theorem readLE_leBytes {w n : Nat} (h : n < 256 ^ w) (r : Bytes) : readLE w (leBytes w n ++ r) = .ok (n, r) := by
  unfold readLE
  have := takeBytes_append (leBytes w n) r
  rw [leBytes_length] at this
  rw [bind_of this, pure_of, ofLE_leBytes_of_lt h]

theorem readBE_beBytes {w n : Nat} (h : n < 256 ^ w) (r : Bytes) : readBE w (beBytes w n ++ r) = .ok (n, r) := by
  unfold readBE
  have := takeBytes_append (beBytes w n) r
  rw [beBytes_length] at this
  rw [bind_of this, pure_of, ofBE_beBytes_of_lt h]

/-- `bincode::deserialize`; it refuses `deserialize_any` (`DeserializeAnyNotSupported`).  Bytes after the value are ignored. -/
def bincodeIn : Input where
  u8 := nextByte
  u32 := do let n ← readLE 4; pure (UInt32.ofNat n)
  u64 := do let n ← readLE 8; pure (UInt64.ofNat n)
  str := do let n ← readLE 8; takeBytes n
  bytes := do let n ← readLE 8; takeBytes n
  opt := do
    let b ← nextByte
    if b = 0 then pure false else if b = 1 then pure true else refuse
  seq := readLE 8
  tuple _ := pure ()
  unitStruct := pure ()
  variant table := do
    let i ← readLE 4
    if i < table.length then pure i else refuse
  any := refuse

/-- the head of a string -/
def rmpStrHead : Reader Nat := do
  let m ← nextByte
  if 0xa0 ≤ m.toNat ∧ m.toNat < 0xc0 then pure (m.toNat - 0xa0)
  else if m = 0xd9 then readBE 1
  else if m = 0xda then readBE 2
  else if m = 0xdb then readBE 4
  else refuse

/-- the head of a byte string -/
def rmpBinHead : Reader Nat := do
  let m ← nextByte
  if m = 0xc4 then readBE 1
  else if m = 0xc5 then readBE 2
  else if m = 0xc6 then readBE 4
  else refuse

/-- the head of an array -/
def rmpArrayHead : Reader Nat := do
  let m ← nextByte
  if 0x90 ≤ m.toNat ∧ m.toNat < 0xa0 then pure (m.toNat - 0x90)
  else if m = 0xdc then readBE 2
  else if m = 0xdd then readBE 4
  else refuse

/-- an unsigned integer below `bound` -/
def rmpInt (bound : Nat) : Reader Nat := do
  let m ← nextByte
  let n ← (if m.toNat < 0x80 then pure m.toNat
    else if m = 0xcc then readBE 1
    else if m = 0xcd then readBE 2
    else if m = 0xce then readBE 4
    else if m = 0xcf then readBE 8
    else refuse)
  if n < bound then pure n else refuse

/-- `n` values one after the other -/
def readN {α : Type} (rd : Reader α) : Nat → Reader (List α)
  | 0 => pure []
  | n + 1 => do
    let a ← rd
    let l ← readN rd n
    pure (a :: l)

/-- the string with its head -/
def rmpStr : Reader Bytes := do let n ← rmpStrHead; takeBytes n

/-- a byte -/
def rmpU8 : Reader UInt8 := do let n ← rmpInt 256; pure (UInt8.ofNat n)

/-- the name of a variant with (or without) data -/
def rmpVariant (table : List (Bytes × Bool)) (q : Bool → Bool) : Reader Nat := do
  let name ← rmpStr
  let i := table.findIdx (fun e : Bytes × Bool => e.1 == name && q e.2)
  if i < table.length then pure i else refuse

/-- values of an untagged enum -/
def rmpContentStr : Reader Content := do let x ← rmpStr; pure (.str x)
def rmpContentBytes : Reader Content := do let n ← rmpBinHead; let x ← takeBytes n; pure (.bytes x)
def rmpContentInts : Reader Content := do let n ← rmpArrayHead; let l ← readN rmpU8 n; pure (.ints l)

/-- `rmp_serde::Deserializer`.  Simplified: negative integers, maps in place of arrays, and byte strings and strings in place of each other,
which it takes in some places, are refused; of the values that an untagged enum can buffer, only nil, strings, byte strings and
arrays of bytes are read. -/
def rmpIn : Input where
  u8 := rmpU8
  u32 := do let n ← rmpInt (2 ^ 32); pure (UInt32.ofNat n)
  u64 := do let n ← rmpInt (2 ^ 64); pure (UInt64.ofNat n)
  str := rmpStr
  bytes := do let n ← rmpBinHead; takeBytes n
  opt := fun s => match s with
    | [] => .err
    | m :: t => if m = 0xc0 then .ok (false, t) else .ok (true, s)
  seq := rmpArrayHead
  tuple n := do
    let m ← rmpArrayHead
    if m = n then pure () else refuse
  unitStruct := do
    let m ← nextByte
    if m = 0xc0 ∨ m = 0x90 then pure () else refuse
  variant table := fun s => match s with
    | [] => .err
    | m :: t => if m = 0x81 then rmpVariant table (fun d => d) t else rmpVariant table (fun d => !d) s
  any := fun s => match s with
    | [] => .err
    | m :: t => if m = 0xc0 then .ok (.unit, t)
        else if (0xa0 ≤ m.toNat ∧ m.toNat < 0xc0) ∨ (0xd9 ≤ m.toNat ∧ m.toNat ≤ 0xdb) then rmpContentStr s
        else if 0xc4 ≤ m.toNat ∧ m.toNat ≤ 0xc6 then rmpContentBytes s
        else if (0x90 ≤ m.toNat ∧ m.toNat < 0xa0) ∨ m = 0xdc ∨ m = 0xdd then rmpContentInts s
        else .err

/-- what was written is read back, and the input is left at what follows -/
def Reads {α : Type} (enc : α → Bytes) (rd : Reader α) : Prop := ∀ a r, (enc a).length < 2 ^ 32 → rd (enc a ++ r) = .ok (a, r)

/-- the same without a bound on the length -/
def ReadsAll {α : Type} (enc : α → Bytes) (rd : Reader α) : Prop := ∀ a r, rd (enc a ++ r) = .ok (a, r)

/-- What is needed of a pair of a writer and a reader: each piece is read back. -/
structure Paired (F : Format) (I : Input) : Prop where
  u8 : ReadsAll F.u8 I.u8
  u32 : ReadsAll F.u32 I.u32
  u64 : ReadsAll F.u64 I.u64
  str : Reads F.str I.str
  bytes : Reads F.bytes I.bytes
  none : ∀ r, I.opt (F.none ++ r) = .ok (false, r)
  some : ∀ n r, I.opt (F.some ++ (F.tuple n ++ r)) = .ok (true, F.tuple n ++ r)
  seq : ∀ n r, n < 2 ^ 32 → I.seq (F.seq n ++ r) = .ok (n, r)
  tuple : ∀ n r, n < 2 ^ 32 → I.tuple n (F.tuple n ++ r) = .ok ((), r)
  unitStruct : ∀ r, I.unitStruct (F.unitStruct ++ r) = .ok ((), r)
  variant : ∀ (table : List (Bytes × Bool)) i name d r, table.length < 2 ^ 32 → (∀ e ∈ table, e.1.length < 2 ^ 32) →
    (table.map Prod.fst).Nodup → table[i]? = .some (name, d) → I.variant table (F.variant d i name ++ r) = .ok (i, r)

theorem bincode_paired : Paired bincode bincodeIn where
  u8 _ _ := rfl
  u32 a r := by
    simp only [bincode, bincodeIn]
    rw [bind_of (readLE_leBytes (by have := a.toNat_lt; omega) r), pure_of, UInt32.ofNat_toNat]
  u64 a r := by
    simp only [bincode, bincodeIn]
    rw [bind_of (readLE_leBytes (by have := a.toNat_lt; omega) r), pure_of, UInt64.ofNat_toNat]
  str a r h := by
    simp only [bincode, List.length_append, leBytes_length] at h
    simp only [bincode, bincodeIn, List.append_assoc]
    rw [bind_of (readLE_leBytes (by omega) _), takeBytes_append]
  bytes a r h := by
    simp only [bincode, List.length_append, leBytes_length] at h
    simp only [bincode, bincodeIn, List.append_assoc]
    rw [bind_of (readLE_leBytes (by omega) _), takeBytes_append]
  none _ := rfl
  some _ _ := rfl
  seq n r h := readLE_leBytes (by omega) r
  tuple _ _ _ := rfl
  unitStruct _ := rfl
  variant table i name d r hl _ _ hi := by
    have hlt : i < table.length := by
      by_contra hc
      rw [List.getElem?_eq_none (by omega)] at hi
      cases hi
    simp only [bincode, bincodeIn]
    rw [bind_of (readLE_leBytes (by omega) r), if_pos hlt, pure_of]

theorem toNat_ofNat {n : Nat} (h : n < 256) : (UInt8.ofNat n).toNat = n := by
  rw [UInt8.toNat_ofNat']; omega

theorem readBE_one {n : Nat} (h : n < 256) (r : Bytes) : readBE 1 (UInt8.ofNat n :: r) = .ok (n, r) :=
  readBE_beBytes (w := 1) (n := n) (by omega) r

theorem rmpStrHead_len {n : Nat} (h : n < 2 ^ 32) (r : Bytes) : rmpStrHead (rmpStrLen n ++ r) = .ok (n, r) := by
  unfold rmpStrLen rmpStrHead
  split_ifs with h1 h2 h3
  · rw [List.cons_append, List.nil_append, bind_of (nextByte_cons _ _), toNat_ofNat (by omega), if_pos (by omega), pure_of,
      Nat.add_sub_cancel_left]
  · rw [List.cons_append, bind_of (nextByte_cons _ _), if_neg (by decide), if_pos rfl]
    exact readBE_one h2 r
  · rw [List.cons_append, bind_of (nextByte_cons _ _), if_neg (by decide), if_neg (by decide), if_pos rfl]
    exact readBE_beBytes (by omega) r
  · rw [List.cons_append, bind_of (nextByte_cons _ _), if_neg (by decide), if_neg (by decide), if_neg (by decide), if_pos rfl]
    exact readBE_beBytes (by omega) r

theorem rmpBinHead_len {n : Nat} (h : n < 2 ^ 32) (r : Bytes) : rmpBinHead (rmpBinLen n ++ r) = .ok (n, r) := by
  unfold rmpBinLen rmpBinHead
  split_ifs with h2 h3
  · rw [List.cons_append, bind_of (nextByte_cons _ _), if_pos rfl]
    exact readBE_one h2 r
  · rw [List.cons_append, bind_of (nextByte_cons _ _), if_neg (by decide), if_pos rfl]
    exact readBE_beBytes (by omega) r
  · rw [List.cons_append, bind_of (nextByte_cons _ _), if_neg (by decide), if_neg (by decide), if_pos rfl]
    exact readBE_beBytes (by omega) r

theorem rmpArrayHead_len {n : Nat} (h : n < 2 ^ 32) (r : Bytes) : rmpArrayHead (rmpArrayLen n ++ r) = .ok (n, r) := by
  unfold rmpArrayLen rmpArrayHead
  split_ifs with h1 h2
  · rw [List.cons_append, List.nil_append, bind_of (nextByte_cons _ _), toNat_ofNat (by omega), if_pos (by omega), pure_of,
      Nat.add_sub_cancel_left]
  · rw [List.cons_append, bind_of (nextByte_cons _ _), if_neg (by decide), if_pos rfl]
    exact readBE_beBytes (by omega) r
  · rw [List.cons_append, bind_of (nextByte_cons _ _), if_neg (by decide), if_neg (by decide), if_pos rfl]
    exact readBE_beBytes (by omega) r

theorem rmpInt_uint {b n : Nat} (hb : n < b) (h : n < 2 ^ 64) (r : Bytes) : rmpInt b (rmpUint n ++ r) = .ok (n, r) := by
  unfold rmpUint rmpInt
  split_ifs with h1 h2 h3 h4
  · rw [List.cons_append, List.nil_append, bind_of (nextByte_cons _ _), toNat_ofNat (by omega), if_pos (by omega),
      bind_of (pure_of _ _), if_pos hb, pure_of]
  · rw [List.cons_append, bind_of (nextByte_cons _ _), if_neg (by decide), if_pos rfl, List.cons_append, List.nil_append,
      bind_of (readBE_one h2 r), if_pos hb, pure_of]
  · rw [List.cons_append, bind_of (nextByte_cons _ _), if_neg (by decide), if_neg (by decide), if_pos rfl,
      bind_of (readBE_beBytes (by omega) r), if_pos hb, pure_of]
  · rw [List.cons_append, bind_of (nextByte_cons _ _), if_neg (by decide), if_neg (by decide), if_neg (by decide), if_pos rfl,
      bind_of (readBE_beBytes (by omega) r), if_pos hb, pure_of]
  · rw [List.cons_append, bind_of (nextByte_cons _ _), if_neg (by decide), if_neg (by decide), if_neg (by decide),
      if_neg (by decide), if_pos rfl, bind_of (readBE_beBytes (by omega) r), if_pos hb, pure_of]

theorem rmp_u8_uint (x : UInt8) : rmp.u8 x = rmpUint x.toNat := by
  have hx := x.toNat_lt
  have e : UInt8.ofNat x.toNat = x := UInt8.ofNat_toNat
  simp only [rmp, rmpUint, UInt8.lt_iff_toNat_lt]
  have k : (128 : UInt8).toNat = 128 := rfl
  rw [k, e]
  split_ifs <;> rfl

theorem rmpStr_str {a : Bytes} (h : a.length < 2 ^ 32) (r : Bytes) : rmpStr (rmpStrLen a.length ++ (a ++ r)) = .ok (a, r) := by
  unfold rmpStr
  rw [bind_of (rmpStrHead_len h _), takeBytes_append]

theorem findIdx_of_nodup {table : List (Bytes × Bool)} {i : Nat} {name : Bytes} {d : Bool} (hn : (table.map Prod.fst).Nodup)
    (hi : table[i]? = some (name, d)) (q : Bool → Bool) (hq : q d = true) :
    table.findIdx (fun e => e.1 == name && q e.2) = i ∧ i < table.length := by
  obtain ⟨hlt, he⟩ := List.getElem?_eq_some_iff.mp hi
  refine ⟨?_, hlt⟩
  rw [List.findIdx_eq hlt]
  refine ⟨by rw [he]; simp [hq], fun j hj => ?_⟩
  have hne : (table[j]'(by omega)).1 ≠ name := by
    intro e
    have h1 : (table.map Prod.fst)[j]'(by simp; omega) = (table.map Prod.fst)[i]'(by simpa) := by
      simp only [List.getElem_map, he, e]
    have := (List.Nodup.getElem_inj_iff hn).mp h1
    omega
  simp [hne]

theorem rmp_paired : Paired rmp rmpIn where
  u8 a r := by
    have ha := a.toNat_lt
    rw [rmp_u8_uint]
    simp only [rmpIn, rmpU8]
    rw [bind_of (rmpInt_uint (by omega) (by omega) r), pure_of, UInt8.ofNat_toNat]
  u32 a r := by
    have ha := a.toNat_lt
    simp only [rmp, rmpIn]
    rw [bind_of (rmpInt_uint (by omega) (by omega) r), pure_of, UInt32.ofNat_toNat]
  u64 a r := by
    have ha := a.toNat_lt
    simp only [rmp, rmpIn]
    rw [bind_of (rmpInt_uint (by omega) (by omega) r), pure_of, UInt64.ofNat_toNat]
  str a r h := by
    simp only [rmp, List.length_append] at h
    simp only [rmp, rmpIn, List.append_assoc]
    exact rmpStr_str (by omega) r
  bytes a r h := by
    simp only [rmp, List.length_append] at h
    simp only [rmp, rmpIn, List.append_assoc]
    rw [bind_of (rmpBinHead_len (by omega) _), takeBytes_append]
  none _ := rfl
  some n r := by
    obtain ⟨k, t, hk, hk', e⟩ := rmpArrayLen_head n
    have hne : UInt8.ofNat k ≠ 0xc0 := ofNat_ne (m := k) (n := 0xc0) hk' (by omega) hk
    simp only [rmp, rmpIn, List.nil_append, e, List.cons_append, if_neg hne]
  seq n r h := rmpArrayHead_len h r
  tuple n r h := by
    simp only [rmp, rmpIn]
    rw [bind_of (rmpArrayHead_len h r), if_pos rfl, pure_of]
  unitStruct _ := rfl
  variant table i name d r hl hs hn hi := by
    have hname : name.length < 2 ^ 32 := hs _ (List.mem_of_getElem? hi)
    cases d
    · obtain ⟨hf, hlt⟩ := findIdx_of_nodup hn hi (fun b => !b) rfl
      obtain ⟨k, t, hk, hk', e⟩ := rmpStrLen_head name.length
      have hne : UInt8.ofNat k ≠ 0x81 := ofNat_ne (m := k) (n := 0x81) hk' (by omega) (by omega)
      have hstr := rmpStr_str hname r
      simp only [rmp, rmpIn, Bool.false_eq_true, if_false, List.append_assoc]
      rw [e, List.cons_append] at hstr ⊢
      simp only [if_neg hne, rmpVariant]
      rw [bind_of hstr, hf, if_pos hlt, pure_of]
    · obtain ⟨hf, hlt⟩ := findIdx_of_nodup hn hi (fun b => b) rfl
      simp only [rmp, rmpIn, if_true, List.cons_append, List.append_assoc, rmpVariant]
      rw [bind_of (rmpStr_str hname r), hf, if_pos hlt, pure_of]

/-! ### Sequences and options -/

/-- `Vec<T>` -/
def readVec {α : Type} (I : Input) (rd : Reader α) : Reader (List α) := do
  let n ← I.seq
  readN rd n

/-- `Option<T>` -/
def readOption {α : Type} (I : Input) (rd : Reader α) : Reader (Option α) := do
  let b ← I.opt
  if b then (do let a ← rd; pure (some a)) else pure none

theorem readN_of {α : Type} {enc : α → Bytes} {rd : Reader α} (l : List α) (r : Bytes)
    (h : ∀ a ∈ l, ∀ r, (enc a).length < 2 ^ 32 → rd (enc a ++ r) = .ok (a, r)) (hl : (l.flatMap enc).length < 2 ^ 32) :
    readN rd l.length (l.flatMap enc ++ r) = .ok (l, r) := by
  induction l with
  | nil => rfl
  | cons a l ih =>
    simp only [List.flatMap_cons, List.length_append] at hl
    simp only [List.flatMap_cons, List.append_assoc, List.length_cons, readN]
    rw [bind_of (h a List.mem_cons_self _ (by omega)), bind_of (ih (fun b hb => h b (List.mem_cons_of_mem _ hb)) (by omega)), pure_of]

section
variable {F : Format} {I : Input} (hP : Paired F I)

include hP

theorem reads_vec_of {α : Type} {enc : α → Bytes} {rd : Reader α} (hN : NonNil enc) (l : List α) (r : Bytes)
    (h : ∀ a ∈ l, ∀ r, (enc a).length < 2 ^ 32 → rd (enc a ++ r) = .ok (a, r)) (hl : (serVec F enc l).length < 2 ^ 32) :
    readVec I rd (serVec F enc l ++ r) = .ok (l, r) := by
  simp only [serVec, List.length_append] at hl
  have h1 := length_le_flatMap hN l
  simp only [serVec, List.append_assoc, readVec]
  rw [bind_of (hP.seq _ _ (by omega))]
  exact readN_of l r h (by omega)

theorem reads_vec {α : Type} {enc : α → Bytes} {rd : Reader α} (hN : NonNil enc) (h : Reads enc rd) :
    Reads (serVec F enc) (readVec I rd) := fun l r hl => reads_vec_of hP hN l r (fun a _ r => h a r) hl

theorem reads_option_of {α : Type} {enc : α → Bytes} {rd : Reader α} (hH : Headed F enc) (o : Option α) (r : Bytes)
    (h : ∀ a, o = some a → ∀ r, (enc a).length < 2 ^ 32 → rd (enc a ++ r) = .ok (a, r)) (hl : (serOption F enc o).length < 2 ^ 32) :
    readOption I rd (serOption F enc o ++ r) = .ok (o, r) := by
  cases o with
  | none =>
    simp only [serOption, readOption]
    rw [bind_of (hP.none r), if_neg (by simp), pure_of]
  | some a =>
    simp only [serOption, List.length_append] at hl
    have h0 := h a rfl r (by omega)
    obtain ⟨n, t, e⟩ := hH a
    have h1 : I.opt (F.some ++ (enc a ++ r)) = .ok (true, enc a ++ r) := by
      rw [e, List.append_assoc]
      exact hP.some n (t ++ r)
    simp only [serOption, readOption, List.append_assoc]
    rw [bind_of h1, if_pos rfl, bind_of h0, pure_of]

theorem reads_option {α : Type} {enc : α → Bytes} {rd : Reader α} (hH : Headed F enc) (h : Reads enc rd) :
    Reads (serOption F enc) (readOption I rd) := fun o r hl => reads_option_of hP hH o r (fun a _ r => h a r) hl

end

end Verif.Serde
