import Verif.Res
import Verif.Serde.Format

/-!
JSON texts: what `serde_json` 1.0 (a dependency, modelled from its documented behaviour) writes and reads.  A text is read into a tree
first; the readers of `Serde/Json.lean` work on trees.
-/

namespace Verif.Serde

/-- a JSON value; strings are UTF-8 and members are kept in the order of the text -/
inductive Json where
  | null
  | bool (b : Bool)
  | num (n : Nat)
  | str (s : Bytes)
  | arr (l : List Json)
  | obj (l : List (Bytes × Json))

/-! ### Writing -/

/-- a digit in base 16 -/
def hexDigit (n : Nat) : UInt8 := if n < 10 then UInt8.ofNat (48 + n) else UInt8.ofNat (87 + n)

/-- `format_escaped_str_contents`: quotes, backslashes and control characters are escaped -/
def escByte (b : UInt8) : Bytes :=
  if b = 34 then [92, 34]
  else if b = 92 then [92, 92]
  else if b = 8 then [92, 98]
  else if b = 9 then [92, 116]
  else if b = 10 then [92, 110]
  else if b = 12 then [92, 102]
  else if b = 13 then [92, 114]
  else if b.toNat < 32 then [92, 117, 48, 48, hexDigit (b.toNat / 16), hexDigit (b.toNat % 16)]
  else [b]

/-- a string in quotes -/
def jsonStr (s : Bytes) : Bytes := 34 :: (s.flatMap escByte ++ [34])

mutual
/-- `serde_json::to_string` of a value: no spaces -/
def Json.text : Json → Bytes
  | .null => [110, 117, 108, 108]
  | .bool true => [116, 114, 117, 101]
  | .bool false => [102, 97, 108, 115, 101]
  | .num n => decimal n
  | .str s => jsonStr s
  | .arr l => 91 :: elemsText l
  | .obj l => 123 :: membersText l

/-- the elements of an array with the closing bracket -/
def elemsText : List Json → Bytes
  | [] => [93]
  | j :: l => j.text ++ match l with
    | [] => [93]
    | _ :: _ => 44 :: elemsText l

/-- the members of an object with the closing brace -/
def membersText : List (Bytes × Json) → Bytes
  | [] => [125]
  | (k, j) :: l => jsonStr k ++ 58 :: (j.text ++ match l with
    | [] => [125]
    | _ :: _ => 44 :: membersText l)
end

mutual
/-- how many arrays and objects are open at most -/
def Json.depth : Json → Nat
  | .arr l => 1 + elemsDepth l
  | .obj l => 1 + membersDepth l
  | _ => 0

/-- depth of the deepest element -/
def elemsDepth : List Json → Nat
  | [] => 0
  | j :: l => max j.depth (elemsDepth l)

/-- depth of the deepest member -/
def membersDepth : List (Bytes × Json) → Nat
  | [] => 0
  | (_, j) :: l => max j.depth (membersDepth l)
end

/-! ### Reading -/

/-- space, tab, newline, carriage return -/
def isSpace (b : UInt8) : Bool := b == 32 || b == 9 || b == 10 || b == 13

/-- `parse_whitespace` -/
def skipSpace (s : Bytes) : Bytes := s.dropWhile isSpace

/-- value of a digit in base 16 -/
def hexVal (b : UInt8) : Option Nat :=
  if 48 ≤ b.toNat ∧ b.toNat ≤ 57 then some (b.toNat - 48)
  else if 97 ≤ b.toNat ∧ b.toNat ≤ 102 then some (b.toNat - 87)
  else if 65 ≤ b.toNat ∧ b.toNat ≤ 70 then some (b.toNat - 55)
  else none

/-- four digits in base 16 -/
def hexFour (a b c d : UInt8) : Option Nat := do
  let x ← hexVal a
  let y ← hexVal b
  let z ← hexVal c
  let w ← hexVal d
  some (x * 4096 + y * 256 + z * 16 + w)

/-- UTF-8 of a code point below `2^16` -/
def utf8 (n : Nat) : Bytes :=
  if n < 128 then [UInt8.ofNat n]
  else if n < 2048 then [UInt8.ofNat (192 + n / 64), UInt8.ofNat (128 + n % 64)]
  else [UInt8.ofNat (224 + n / 4096), UInt8.ofNat (128 + n / 64 % 64), UInt8.ofNat (128 + n % 64)]

/-- the character after a backslash -/
def unescape (b : UInt8) : Option UInt8 :=
  if b = 34 ∨ b = 92 ∨ b = 47 then some b
  else if b = 98 then some 8
  else if b = 116 then some 9
  else if b = 110 then some 10
  else if b = 102 then some 12
  else if b = 114 then some 13
  else none

/-- what an escape stands for, and what follows it.  Simplified: `\u` escapes of surrogates are refused. -/
def escRest : Bytes → Option (Bytes × Bytes)
  | [] => none
  | c :: r =>
    if c = 117 then
      match r with
      | x :: y :: z :: w :: r => do
        let n ← hexFour x y z w
        if 55296 ≤ n ∧ n < 57344 then none else some (utf8 n, r)
      | _ => none
    else do
      let e ← unescape c
      some ([e], r)

/-- `parse_str`, after the opening quote: the string and what follows the closing quote; `n` bounds the number of characters -/
def strRest : Nat → Bytes → Option (Bytes × Bytes)
  | 0, _ => none
  | _ + 1, [] => none
  | n + 1, b :: r =>
    if b = 34 then some ([], r)
    else if b = 92 then do
      let e ← escRest r
      let p ← strRest n e.2
      some (e.1 ++ p.1, p.2)
    else if b.toNat < 32 then none
    else do
      let p ← strRest n r
      some (b :: p.1, p.2)

/-- a digit -/
def isDigit (b : UInt8) : Bool := 48 ≤ b.toNat && b.toNat < 58

/-- continues an integer to a number with a fraction or an exponent -/
def isFraction (b : UInt8) : Bool := b == 46 || b == 101 || b == 69

/-- `parse_integer`: digits without a leading zero.  Simplified: negative numbers and numbers with a fraction or an exponent are
refused; no part of a note takes them. -/
def numRest (s : Bytes) : Option (Nat × Bytes) :=
  let ds := s.takeWhile isDigit
  let r := s.dropWhile isDigit
  if ds = [] then none
  else if ds.head? = some 48 ∧ ds.length ≠ 1 then none
  else if (r.head?.map isFraction).getD false then none
  else some (ds.foldl (fun n d => n * 10 + (d.toNat - 48)) 0, r)

mutual
/-- `Deserializer::parse_value` with a bound on the steps (`n`) and with `remaining_depth` (`d`), which each array and each object lowers
and which must not become zero -/
def readValue : Nat → Nat → Bytes → Option (Json × Bytes)
  | 0, _, _ => none
  | n + 1, d, s =>
    match skipSpace s with
    | [] => none
    | b :: r =>
      if b = 110 then (if r.take 3 = [117, 108, 108] then some (.null, r.drop 3) else none)
      else if b = 116 then (if r.take 3 = [114, 117, 101] then some (.bool true, r.drop 3) else none)
      else if b = 102 then (if r.take 4 = [97, 108, 115, 101] then some (.bool false, r.drop 4) else none)
      else if b = 34 then (strRest r.length r).map (fun p => (.str p.1, p.2))
      else if b = 91 then
        if d ≤ 1 then none
        else if (skipSpace r).head? = some 93 then some (.arr [], (skipSpace r).tail)
        else (readElems n (d - 1) r).map (fun p => (.arr p.1, p.2))
      else if b = 123 then
        if d ≤ 1 then none
        else if (skipSpace r).head? = some 125 then some (.obj [], (skipSpace r).tail)
        else (readMembers n (d - 1) r).map (fun p => (.obj p.1, p.2))
      else (numRest (b :: r)).map (fun p => (.num p.1, p.2))

/-- `SeqAccess`: elements separated by commas up to the closing bracket -/
def readElems : Nat → Nat → Bytes → Option (List Json × Bytes)
  | 0, _, _ => none
  | n + 1, d, s => do
    let p ← readValue n d s
    match skipSpace p.2 with
    | [] => none
    | b :: r =>
      if b = 93 then some ([p.1], r)
      else if b = 44 then do
        let q ← readElems n d r
        some (p.1 :: q.1, q.2)
      else none

/-- `MapAccess`: names and values separated by commas up to the closing brace -/
def readMembers : Nat → Nat → Bytes → Option (List (Bytes × Json) × Bytes)
  | 0, _, _ => none
  | n + 1, d, s =>
    match skipSpace s with
    | [] => none
    | b :: r =>
      if b = 34 then do
        let k ← strRest r.length r
        match skipSpace k.2 with
        | [] => none
        | b :: r =>
          if b = 58 then do
            let p ← readValue n d r
            match skipSpace p.2 with
            | [] => none
            | b :: r =>
              if b = 125 then some ([(k.1, p.1)], r)
              else if b = 44 then do
                let q ← readMembers n d r
                some ((k.1, p.1) :: q.1, q.2)
              else none
          else none
      else none
end

/-- `serde_json::from_str` up to the tree: one value, at most 127 levels deep, and nothing but spaces after it -/
def parseJson (s : Bytes) : Option Json :=
  match readValue (s.length + 1) 128 s with
  | none => none
  | some (j, r) => if skipSpace r = [] then some j else none

/-! ### Texts of a value -/

/-- only spaces -/
def Spaces (w : Bytes) : Prop := ∀ b ∈ w, isSpace b = true

mutual
/-- `t` is a text of the value: as `serde_json` writes it, with any spaces between the tokens -/
inductive Writes : Json → Bytes → Prop
  | null : Writes .null [110, 117, 108, 108]
  | true : Writes (.bool true) [116, 114, 117, 101]
  | false : Writes (.bool false) [102, 97, 108, 115, 101]
  | num (n : Nat) : Writes (.num n) (decimal n)
  | str (s : Bytes) : Writes (.str s) (jsonStr s)
  | arrNil (w : Bytes) : Spaces w → Writes (.arr []) (91 :: (w ++ [93]))
  | arr (l : List Json) (t : Bytes) : WritesElems l t → Writes (.arr l) (91 :: t)
  | objNil (w : Bytes) : Spaces w → Writes (.obj []) (123 :: (w ++ [125]))
  | obj (l : List (Bytes × Json)) (t : Bytes) : WritesMembers l t → Writes (.obj l) (123 :: t)

/-- elements of an array that is not empty, with the closing bracket -/
inductive WritesElems : List Json → Bytes → Prop
  | last (j : Json) (w t v : Bytes) : Spaces w → Writes j t → Spaces v → WritesElems [j] (w ++ (t ++ (v ++ [93])))
  | more (j : Json) (l : List Json) (w t v u : Bytes) : Spaces w → Writes j t → Spaces v → WritesElems l u →
    WritesElems (j :: l) (w ++ (t ++ (v ++ 44 :: u)))

/-- members of an object that is not empty, with the closing brace -/
inductive WritesMembers : List (Bytes × Json) → Bytes → Prop
  | last (k : Bytes) (j : Json) (w x w' t v : Bytes) : Spaces w → Spaces x → Spaces w' → Writes j t → Spaces v →
    WritesMembers [(k, j)] (w ++ (jsonStr k ++ (x ++ 58 :: (w' ++ (t ++ (v ++ [125]))))))
  | more (k : Bytes) (j : Json) (l : List (Bytes × Json)) (w x w' t v u : Bytes) : Spaces w → Spaces x → Spaces w' → Writes j t →
    Spaces v → WritesMembers l u →
    WritesMembers ((k, j) :: l) (w ++ (jsonStr k ++ (x ++ 58 :: (w' ++ (t ++ (v ++ 44 :: u))))))
end

/-! ### Every text is read as its value -/

theorem skip_spaces {w : Bytes} (h : Spaces w) (r : Bytes) : skipSpace (w ++ r) = skipSpace r := by
  induction w with
  | nil => rfl
  | cons b w ih =>
    rw [List.cons_append, skipSpace, List.dropWhile_cons_of_pos (h b List.mem_cons_self)]
    exact ih (fun c hc => h c (List.mem_cons_of_mem _ hc))

theorem skip_cons {b : UInt8} (h : isSpace b = false) (r : Bytes) : skipSpace (b :: r) = b :: r := by
  rw [skipSpace, List.dropWhile_cons_of_neg (by simp [h])]

set_option maxRecDepth 10000 in
theorem strRest_esc (n : Nat) (b : UInt8) (r : Bytes) :
    strRest (n + 1) (escByte b ++ r) = (strRest n r).bind (fun p => some (b :: p.1, p.2)) := by
  by_cases h : b = 34 ∨ b = 92 ∨ b.toNat < 32
  · have hb : b.toNat = 34 ∨ b.toNat = 92 ∨ b.toNat < 32 := by
      rcases h with rfl | rfl | h
      · exact .inl rfl
      · exact .inr (.inl rfl)
      · exact .inr (.inr h)
    have e : b = UInt8.ofNat b.toNat := (UInt8.ofNat_toNat).symm
    generalize b.toNat = m at hb e
    subst e
    rcases hb with rfl | rfl | hb
    · rfl
    · rfl
    · interval_cases m <;> rfl
  · simp only [not_or, not_lt] at h
    obtain ⟨h1, h2, h3⟩ := h
    have hne : ∀ k : UInt8, k.toNat < 32 → b ≠ k := fun k hk e => by subst e; omega
    have e : escByte b = [b] := by
      unfold escByte
      rw [if_neg h1, if_neg h2, if_neg (hne 8 (by decide)), if_neg (hne 9 (by decide)), if_neg (hne 10 (by decide)),
        if_neg (hne 12 (by decide)), if_neg (hne 13 (by decide)), if_neg (by omega)]
    rw [e, List.cons_append, List.nil_append, strRest, if_neg h1, if_neg h2, if_neg (by omega)]
    rfl

theorem escByte_ne (b : UInt8) : 1 ≤ (escByte b).length := by
  unfold escByte
  split_ifs <;> simp

theorem strRest_str (n : Nat) (s r : Bytes) (h : (s.flatMap escByte).length < n) :
    strRest n (s.flatMap escByte ++ 34 :: r) = some (s, r) := by
  induction s generalizing n with
  | nil =>
    obtain ⟨m, rfl⟩ : ∃ m, n = m + 1 := ⟨n - 1, by omega⟩
    rfl
  | cons b s ih =>
    rw [List.flatMap_cons, List.length_append] at h
    have := escByte_ne b
    obtain ⟨m, rfl⟩ : ∃ m, n = m + 1 := ⟨n - 1, by omega⟩
    rw [List.flatMap_cons, List.append_assoc, strRest_esc, ih m (by omega)]
    rfl

/-- what may follow an integer -/
def Ends (r : Bytes) : Prop := ∀ b, r.head? = some b → isDigit b = false ∧ isFraction b = false

theorem ends_spaces {w : Bytes} (h : Spaces w) {r : Bytes} (hr : Ends r) : Ends (w ++ r) := by
  cases w with
  | nil => exact hr
  | cons c w =>
    intro b hb
    simp only [List.cons_append, List.head?_cons, Option.some.injEq] at hb
    subst hb
    have := h c List.mem_cons_self
    simp only [isSpace, Bool.or_eq_true, beq_iff_eq] at this
    rcases this with ((rfl | rfl) | rfl) | rfl <;> exact ⟨rfl, rfl⟩

theorem ends_cons {b : UInt8} (h1 : isDigit b = false) (h2 : isFraction b = false) (r : Bytes) : Ends (b :: r) := by
  intro c hc
  simp only [List.head?_cons, Option.some.injEq] at hc
  subst hc
  exact ⟨h1, h2⟩

theorem digits_value (l : List Nat) (hl : ∀ d ∈ l, d < 10) :
    (l.reverse.map (fun d => UInt8.ofNat (48 + d))).foldl (fun n (d : UInt8) => n * 10 + (d.toNat - 48)) 0 = Nat.ofDigits 10 l := by
  induction l with
  | nil => rfl
  | cons d l ih =>
    have hd := hl d List.mem_cons_self
    have e : (UInt8.ofNat (48 + d)).toNat = 48 + d := by rw [UInt8.toNat_ofNat']; omega
    rw [List.reverse_cons, List.map_append, List.foldl_append, ih (fun e he => hl e (List.mem_cons_of_mem _ he)), List.map_cons,
      List.map_nil, List.foldl_cons, List.foldl_nil, e, Nat.ofDigits_cons]
    omega

theorem digit_isDigit {d : Nat} (h : d < 10) : isDigit (UInt8.ofNat (48 + d)) = true := by
  have e : (UInt8.ofNat (48 + d)).toNat = 48 + d := by rw [UInt8.toNat_ofNat']; omega
  simp only [isDigit, e, Bool.and_eq_true, decide_eq_true_eq]
  omega

theorem decimal_digits (n : Nat) : (∀ b ∈ decimal n, isDigit b = true) ∧ decimal n ≠ [] ∧
    ((decimal n).head? = some 48 → (decimal n).length = 1) ∧
    (decimal n).foldl (fun n (d : UInt8) => n * 10 + (d.toNat - 48)) 0 = n := by
  unfold decimal
  split_ifs with h
  · subst h
    exact ⟨by decide, by decide, fun _ => rfl, rfl⟩
  · have hdig : ∀ d ∈ Nat.digits 10 n, d < 10 := fun d hd => Nat.digits_lt_base (by norm_num) hd
    refine ⟨?_, ?_, ?_, ?_⟩
    · intro b hb
      obtain ⟨d, hd, rfl⟩ := List.mem_map.mp hb
      exact digit_isDigit (hdig d (List.mem_reverse.mp hd))
    · simp [Nat.digits_ne_nil_iff_ne_zero, h]
    · intro e
      rw [List.head?_map, List.head?_reverse] at e
      obtain ⟨d, hd, e⟩ := Option.map_eq_some_iff.mp e
      have h10 := hdig d (List.mem_of_getLast? hd)
      have hne : Nat.digits 10 n ≠ [] := Nat.digits_ne_nil_iff_ne_zero.mpr h
      have hl := Nat.getLast_digit_ne_zero 10 h
      rw [List.getLast?_eq_getLast_of_ne_nil hne, Option.some.injEq] at hd
      rw [hd] at hl
      exact absurd e (ofNat_ne (m := 48 + d) (n := 48) (by omega) (by omega) (by omega))
    · rw [digits_value _ hdig, Nat.ofDigits_digits]

theorem span_digits (ds r : Bytes) (h : ∀ b ∈ ds, isDigit b = true) (hr : Ends r) :
    (ds ++ r).takeWhile isDigit = ds ∧ (ds ++ r).dropWhile isDigit = r := by
  induction ds with
  | nil =>
    cases r with
    | nil => exact ⟨rfl, rfl⟩
    | cons b r =>
      have := (hr b rfl).1
      exact ⟨by rw [List.nil_append, List.takeWhile_cons_of_neg (by simp [this])],
        by rw [List.nil_append, List.dropWhile_cons_of_neg (by simp [this])]⟩
  | cons b ds ih =>
    obtain ⟨h1, h2⟩ := ih (fun c hc => h c (List.mem_cons_of_mem _ hc))
    have hb := h b List.mem_cons_self
    exact ⟨by rw [List.cons_append, List.takeWhile_cons_of_pos hb, h1], by rw [List.cons_append, List.dropWhile_cons_of_pos hb, h2]⟩

theorem numRest_decimal (n : Nat) (r : Bytes) (hr : Ends r) : numRest (decimal n ++ r) = some (n, r) := by
  obtain ⟨h1, h2, h3, h4⟩ := decimal_digits n
  obtain ⟨e1, e2⟩ := span_digits _ r h1 hr
  unfold numRest
  simp only [e1, e2, h4, if_neg h2]
  rw [if_neg (fun h => h.2 (h3 h.1)), if_neg]
  cases r with
  | nil => simp
  | cons b r => simp [(hr b rfl).2]

theorem decimal_cons (n : Nat) : ∃ b t, decimal n = b :: t ∧ isDigit b = true := by
  obtain ⟨h1, h2, -, -⟩ := decimal_digits n
  cases h : decimal n with
  | nil => exact absurd h h2
  | cons b t => exact ⟨b, t, rfl, h1 b (by rw [h]; exact List.mem_cons_self)⟩

theorem digit_ne {b c : UInt8} (h : isDigit b = true) (hc : isDigit c = false) : b ≠ c := fun e => by
  subst e
  rw [h] at hc
  cases hc

theorem digit_not_space {b : UInt8} (h : isDigit b = true) : isSpace b = false := by
  simp only [isSpace, Bool.or_eq_false_iff, beq_eq_false_iff_ne]
  exact ⟨⟨⟨digit_ne h rfl, digit_ne h rfl⟩, digit_ne h rfl⟩, digit_ne h rfl⟩

/-- a text of a value begins with neither a space nor a closing bracket -/
theorem writes_head {j : Json} {t : Bytes} (h : Writes j t) :
    ∃ b u, t = b :: u ∧ isSpace b = false ∧ b ≠ 93 := by
  cases h with
  | null => exact ⟨_, _, rfl, rfl, by decide⟩
  | true => exact ⟨_, _, rfl, rfl, by decide⟩
  | false => exact ⟨_, _, rfl, rfl, by decide⟩
  | num n =>
    obtain ⟨b, u, e, hb⟩ := decimal_cons n
    exact ⟨b, u, e, digit_not_space hb, digit_ne hb rfl⟩
  | str s => exact ⟨_, _, rfl, rfl, by decide⟩
  | arrNil w => exact ⟨_, _, rfl, rfl, by decide⟩
  | arr l u => exact ⟨_, _, rfl, rfl, by decide⟩
  | objNil w => exact ⟨_, _, rfl, rfl, by decide⟩
  | obj l u => exact ⟨_, _, rfl, rfl, by decide⟩

theorem elems_head {l : List Json} {t : Bytes} (h : WritesElems l t) (r : Bytes) : (skipSpace (t ++ r)).head? ≠ some 93 := by
  cases h with
  | last j w t v hw hj hv =>
    obtain ⟨b, u, rfl, hb, hne⟩ := writes_head hj
    rw [List.append_assoc, skip_spaces hw, List.append_assoc, List.cons_append, skip_cons hb]
    simpa using hne
  | more j l w t v u hw hj hv hl =>
    obtain ⟨b, u, rfl, hb, hne⟩ := writes_head hj
    rw [List.append_assoc, skip_spaces hw, List.append_assoc, List.cons_append, skip_cons hb]
    simpa using hne

theorem members_head {l : List (Bytes × Json)} {t : Bytes} (h : WritesMembers l t) (r : Bytes) :
    (skipSpace (t ++ r)).head? ≠ some 125 := by
  cases h with
  | last k j w x w' t v hw =>
    rw [List.append_assoc, skip_spaces hw, jsonStr, List.cons_append, List.cons_append, skip_cons rfl]
    simp
  | more k j l w x w' t v u hw =>
    rw [List.append_assoc, skip_spaces hw, jsonStr, List.cons_append, List.cons_append, skip_cons rfl]
    simp

/-- a text of a value is read as the value, an array or an object by its parts -/
theorem read_spec (n : Nat) :
    (∀ j t, Writes j t → t.length < n → ∀ d w r, Spaces w → j.depth < d → Ends r →
      readValue n d (w ++ (t ++ r)) = some (j, r)) ∧
    (∀ l t, WritesElems l t → t.length < n → ∀ d r, elemsDepth l < d → readElems n d (t ++ r) = some (l, r)) ∧
    (∀ l t, WritesMembers l t → t.length < n → ∀ d r, membersDepth l < d → readMembers n d (t ++ r) = some (l, r)) := by
  induction n with
  | zero => exact ⟨fun _ _ _ h => absurd h (by omega), fun _ _ _ h => absurd h (by omega), fun _ _ _ h => absurd h (by omega)⟩
  | succ n ih =>
    obtain ⟨ih1, ih2, ih3⟩ := ih
    refine ⟨?_, ?_, ?_⟩
    · intro j t hj hn d w r hw hd hr
      rw [readValue, skip_spaces hw]
      cases hj with
      | null => rfl
      | true => rfl
      | false => rfl
      | num m =>
        have hm := numRest_decimal m r hr
        obtain ⟨b, u, e, hb⟩ := decimal_cons m
        rw [e, List.cons_append] at hm ⊢
        rw [skip_cons (digit_not_space hb)]
        simp only [if_neg (digit_ne hb (show isDigit 110 = false from rfl)), if_neg (digit_ne hb (show isDigit 116 = false from rfl)),
          if_neg (digit_ne hb (show isDigit 102 = false from rfl)), if_neg (digit_ne hb (show isDigit 34 = false from rfl)),
          if_neg (digit_ne hb (show isDigit 91 = false from rfl)), if_neg (digit_ne hb (show isDigit 123 = false from rfl)), hm]
        rfl
      | str s =>
        simp only [jsonStr, List.cons_append, List.append_assoc, List.nil_append]
        rw [skip_cons rfl]
        change (strRest _ _).map _ = _
        rw [strRest_str]
        · rfl
        · simp
      | arrNil v hv =>
        have hd' : ¬ d ≤ 1 := by simp only [Json.depth, elemsDepth] at hd; omega
        rw [List.cons_append, skip_cons rfl]
        change (if d ≤ 1 then none else if (skipSpace ((v ++ [93]) ++ r)).head? = some 93 then _ else _) = _
        rw [List.append_assoc, skip_spaces hv, List.cons_append, List.nil_append, skip_cons rfl, if_neg hd']
        rfl
      | arr l u hl =>
        simp only [Json.depth] at hd
        simp only [List.length_cons] at hn
        rw [List.cons_append, skip_cons rfl]
        change (if d ≤ 1 then none else if (skipSpace (u ++ r)).head? = some 93 then _ else (readElems n (d - 1) (u ++ r)).map _) = _
        rw [if_neg (by omega), if_neg (elems_head hl r), ih2 l u hl (by omega) (d - 1) r (by omega)]
        rfl
      | objNil v hv =>
        have hd' : ¬ d ≤ 1 := by simp only [Json.depth, membersDepth] at hd; omega
        rw [List.cons_append, skip_cons rfl]
        change (if d ≤ 1 then none else if (skipSpace ((v ++ [125]) ++ r)).head? = some 125 then _ else _) = _
        rw [List.append_assoc, skip_spaces hv, List.cons_append, List.nil_append, skip_cons rfl, if_neg hd']
        rfl
      | obj l u hl =>
        simp only [Json.depth] at hd
        simp only [List.length_cons] at hn
        rw [List.cons_append, skip_cons rfl]
        change (if d ≤ 1 then none else if (skipSpace (u ++ r)).head? = some 125 then _ else (readMembers n (d - 1) (u ++ r)).map _) = _
        rw [if_neg (by omega), if_neg (members_head hl r), ih3 l u hl (by omega) (d - 1) r (by omega)]
        rfl
    · intro l t hl hn d r hd
      cases hl with
      | last j w t v hw hj hv =>
        simp only [List.length_append, List.length_cons, List.length_nil] at hn
        simp only [elemsDepth] at hd
        simp only [List.append_assoc, List.cons_append, List.nil_append]
        rw [readElems,
          ih1 j t hj (by omega) d w _ hw (by omega) (ends_spaces hv (ends_cons rfl rfl _))]
        simp only [Option.bind_eq_bind, Option.bind_some]
        rw [skip_spaces hv, skip_cons rfl]
        rfl
      | more j l w t v u hw hj hv hl =>
        simp only [List.length_append, List.length_cons] at hn
        simp only [elemsDepth] at hd
        simp only [List.append_assoc, List.cons_append]
        rw [readElems,
          ih1 j t hj (by omega) d w _ hw (by omega) (ends_spaces hv (ends_cons rfl rfl _))]
        simp only [Option.bind_eq_bind, Option.bind_some]
        rw [skip_spaces hv, skip_cons rfl]
        change (readElems n d (u ++ r)).bind _ = _
        rw [ih2 l u hl (by omega) d r (by omega)]
        rfl
    · intro l t hl hn d r hd
      cases hl with
      | last k j w x w' t v hw hx hw' hj hv =>
        simp only [List.length_append, List.length_cons, List.length_nil, jsonStr] at hn
        simp only [membersDepth] at hd
        simp only [List.append_assoc, List.cons_append, List.nil_append, jsonStr]
        rw [readMembers, skip_spaces hw, skip_cons rfl]
        change (strRest _ _).bind _ = _
        rw [strRest_str _ _ _ (by simp only [List.length_append, List.length_cons]; omega)]
        simp only [Option.bind_some]
        rw [skip_spaces hx, skip_cons rfl]
        change (readValue n d (w' ++ (t ++ (v ++ 125 :: r)))).bind _ = _
        rw [ih1 j t hj (by omega) d w' _ hw' (by omega) (ends_spaces hv (ends_cons rfl rfl _))]
        simp only [Option.bind_some]
        rw [skip_spaces hv, skip_cons rfl]
        rfl
      | more k j l w x w' t v u hw hx hw' hj hv hl =>
        simp only [List.length_append, List.length_cons, List.length_nil, jsonStr] at hn
        simp only [membersDepth] at hd
        simp only [List.append_assoc, List.cons_append, List.nil_append, jsonStr]
        rw [readMembers, skip_spaces hw, skip_cons rfl]
        change (strRest _ _).bind _ = _
        rw [strRest_str _ _ _ (by simp only [List.length_append, List.length_cons]; omega)]
        simp only [Option.bind_some]
        rw [skip_spaces hx, skip_cons rfl]
        change (readValue n d (w' ++ (t ++ (v ++ 44 :: (u ++ r))))).bind _ = _
        rw [ih1 j t hj (by omega) d w' _ hw' (by omega) (ends_spaces hv (ends_cons rfl rfl _))]
        simp only [Option.bind_some]
        rw [skip_spaces hv, skip_cons rfl]
        change (readMembers n d (u ++ r)).bind _ = _
        rw [ih3 l u hl (by omega) d r (by omega)]
        rfl

/-- A text of a value, with spaces before and after it, is read as the value. -/
theorem parseJson_writes {j : Json} {t : Bytes} (h : Writes j t) (hd : j.depth < 128) (w v : Bytes) (hw : Spaces w) (hv : Spaces v) :
    parseJson (w ++ (t ++ v)) = some j := by
  have hends : Ends v := by
    have := ends_spaces hv (r := []) (by intro b hb; simp at hb)
    rwa [List.append_nil] at this
  unfold parseJson
  rw [(read_spec _).1 j t h (by simp only [List.length_append]; omega) 128 w v hw hd hends]
  have e := skip_spaces hv []
  rw [List.append_nil] at e
  simp only [e]
  rfl

theorem spaces_nil : Spaces [] := by intro b hb; simp at hb

mutual
/-- what `to_string` writes is a text of the value -/
theorem writes_text : ∀ j : Json, Writes j j.text
  | .null => .null
  | .bool true => .true
  | .bool false => .false
  | .num n => .num n
  | .str s => .str s
  | .arr l => by
    cases hl : l with
    | nil => exact .arrNil [] spaces_nil
    | cons j m => rw [← hl]; exact .arr l _ (writes_elems l (by rw [hl]; simp))
  | .obj l => by
    cases hl : l with
    | nil => exact .objNil [] spaces_nil
    | cons j m => rw [← hl]; exact .obj l _ (writes_members l (by rw [hl]; simp))

theorem writes_elems : ∀ l : List Json, l ≠ [] → WritesElems l (elemsText l)
  | [], h => absurd rfl h
  | j :: l, _ => by
    cases hl : l with
    | nil =>
      have := WritesElems.last j [] j.text [] spaces_nil (writes_text j) spaces_nil
      simpa [elemsText] using this
    | cons i m =>
      have := WritesElems.more j l [] j.text [] _ spaces_nil (writes_text j) spaces_nil (writes_elems l (by rw [hl]; simp))
      simpa [elemsText, hl] using this

theorem writes_members : ∀ l : List (Bytes × Json), l ≠ [] → WritesMembers l (membersText l)
  | [], h => absurd rfl h
  | (k, j) :: l, _ => by
    cases hl : l with
    | nil =>
      have := WritesMembers.last k j [] [] [] j.text [] spaces_nil spaces_nil spaces_nil (writes_text j) spaces_nil
      simpa [membersText] using this
    | cons i m =>
      have := WritesMembers.more k j l [] [] [] j.text [] _ spaces_nil spaces_nil spaces_nil (writes_text j) spaces_nil
        (writes_members l (by rw [hl]; simp))
      simpa [membersText, hl] using this
end

/-- what `to_string` writes is read back -/
theorem parseJson_text (j : Json) (hd : j.depth < 128) : parseJson j.text = some j := by
  have := parseJson_writes (writes_text j) hd [] [] spaces_nil spaces_nil
  rwa [List.nil_append, List.append_nil] at this

end Verif.Serde
