import Verif.Serde.JsonText

/-!
C114: the documents that are accepted are the texts of the grammar of JSON.  The grammar is written down as in RFC 8259, without a look
at the reader: what a text means is a relation between trees and texts, the characters of `\u` escapes are encoded by Lean's own
`String.utf8EncodeChar`.
-/

namespace Verif.Serde

/-! ### The grammar of RFC 8259 -/

/-- `ws`: space, tab, newline, carriage return -/
def Blank (w : Bytes) : Prop := ∀ b ∈ w, b = 32 ∨ b = 9 ∨ b = 10 ∨ b = 13

/-- `HEXDIG` with its value: `0`–`9`, `a`–`f` or `A`–`F` -/
def HexDigit (b : UInt8) (v : Nat) : Prop :=
  (v < 10 ∧ b.toNat = 48 + v) ∨ (10 ≤ v ∧ v < 16 ∧ (b.toNat = 97 + (v - 10) ∨ b.toNat = 65 + (v - 10)))

/-- the two-character escapes: `\"`, `\\`, `\/`, `\b`, `\f`, `\n`, `\r`, `\t` -/
def shortEscapes : List (UInt8 × UInt8) := [(34, 34), (92, 92), (47, 47), (98, 8), (102, 12), (110, 10), (114, 13), (116, 9)]

/-- `Chars s t`: the characters `t` between quotes stand for the bytes `s`.  Left out, as in the reader: pairs of `\u` escapes for one
character above `U+FFFF`. -/
inductive Chars : Bytes → Bytes → Prop
  | nil : Chars [] []
  | plain (b : UInt8) (s t : Bytes) : 32 ≤ b.toNat → b ≠ 34 → b ≠ 92 → Chars s t → Chars (b :: s) (b :: t)
  | short (c b : UInt8) (s t : Bytes) : (c, b) ∈ shortEscapes → Chars s t → Chars (b :: s) (92 :: c :: t)
  | unicode (a b c d : UInt8) (x y z w : Nat) (s t : Bytes) : HexDigit a x → HexDigit b y → HexDigit c z → HexDigit d w →
    (x * 4096 + y * 256 + z * 16 + w).isValidChar → Chars s t →
    Chars (String.utf8EncodeChar (Char.ofNat (x * 4096 + y * 256 + z * 16 + w)) ++ s) (92 :: 117 :: a :: b :: c :: d :: t)

/-- `int`: digits without a leading zero and the number that they stand for -/
def Number (n : Nat) (t : Bytes) : Prop :=
  t ≠ [] ∧ (∀ b ∈ t, 48 ≤ b.toNat ∧ b.toNat ≤ 57) ∧ (t.head? = some 48 → t = [48]) ∧
    n = Nat.ofDigits 10 (t.reverse.map (fun b => b.toNat - 48))

mutual
/-- `JText d j t`: the text `t` stands for the value `j`, and at most `d` arrays and objects are open at a time.  Left out, as in the
reader: numbers with a sign, a fraction or an exponent. -/
inductive JText : Nat → Json → Bytes → Prop
  | null (d : Nat) : JText d .null [110, 117, 108, 108]
  | true (d : Nat) : JText d (.bool true) [116, 114, 117, 101]
  | false (d : Nat) : JText d (.bool false) [102, 97, 108, 115, 101]
  | num (d n : Nat) (t : Bytes) : Number n t → JText d (.num n) t
  | str (d : Nat) (s t : Bytes) : Chars s t → JText d (.str s) (34 :: (t ++ [34]))
  | arrNil (d : Nat) (w : Bytes) : Blank w → JText (d + 1) (.arr []) (91 :: (w ++ [93]))
  | arr (d : Nat) (l : List Json) (t : Bytes) : JElems d l t → JText (d + 1) (.arr l) (91 :: t)
  | objNil (d : Nat) (w : Bytes) : Blank w → JText (d + 1) (.obj []) (123 :: (w ++ [125]))
  | obj (d : Nat) (l : List (Bytes × Json)) (t : Bytes) : JMembers d l t → JText (d + 1) (.obj l) (123 :: t)

/-- the elements of an array that is not empty, with the closing bracket -/
inductive JElems : Nat → List Json → Bytes → Prop
  | last (d : Nat) (j : Json) (w t v : Bytes) : Blank w → JText d j t → Blank v → JElems d [j] (w ++ (t ++ (v ++ [93])))
  | more (d : Nat) (j : Json) (l : List Json) (w t v u : Bytes) : Blank w → JText d j t → Blank v → JElems d l u →
    JElems d (j :: l) (w ++ (t ++ (v ++ 44 :: u)))

/-- the members of an object that is not empty, with the closing brace -/
inductive JMembers : Nat → List (Bytes × Json) → Bytes → Prop
  | last (d : Nat) (k : Bytes) (j : Json) (w c x w' t v : Bytes) : Blank w → Chars k c → Blank x → Blank w' → JText d j t → Blank v →
    JMembers d [(k, j)] (w ++ 34 :: (c ++ 34 :: (x ++ 58 :: (w' ++ (t ++ (v ++ [125]))))))
  | more (d : Nat) (k : Bytes) (j : Json) (l : List (Bytes × Json)) (w c x w' t v u : Bytes) : Blank w → Chars k c → Blank x → Blank w' →
    JText d j t → Blank v → JMembers d l u →
    JMembers d ((k, j) :: l) (w ++ 34 :: (c ++ 34 :: (x ++ 58 :: (w' ++ (t ++ (v ++ 44 :: u))))))
end

/-- `JSON-text`: one value with spaces around it -/
def Document (j : Json) (t : Bytes) : Prop := ∃ w u v, t = w ++ (u ++ v) ∧ Blank w ∧ Blank v ∧ JText 127 j u

/-! ### Small parts -/

theorem isSpace_iff (b : UInt8) : isSpace b = true ↔ (b = 32 ∨ b = 9 ∨ b = 10 ∨ b = 13) := by
  simp only [isSpace, Bool.or_eq_true, beq_iff_eq, or_assoc]

theorem blank_spaces {w : Bytes} : Blank w ↔ Spaces w :=
  forall_congr' fun b => forall_congr' fun _ => (isSpace_iff b).symm

theorem skip_split (s : Bytes) : ∃ w, Blank w ∧ s = w ++ skipSpace s :=
  ⟨s.takeWhile isSpace, blank_spaces.mpr (fun _ hb => List.all_eq_true.mp List.all_takeWhile _ hb), List.takeWhile_append_dropWhile.symm⟩

theorem skip_seen {s r : Bytes} {b : UInt8} (h : skipSpace s = b :: r) : ∃ w, Blank w ∧ s = w ++ b :: r := by
  obtain ⟨w, h1, h2⟩ := skip_split s
  exact ⟨w, h1, by rw [← h]; exact h2⟩

theorem hexVal_iff (b : UInt8) (v : Nat) : hexVal b = some v ↔ HexDigit b v := by
  unfold hexVal HexDigit
  split_ifs <;> simp only [Option.some.injEq, false_iff] <;> omega

theorem hexFour_iff {a b c d : UInt8} {n : Nat} : hexFour a b c d = some n ↔
    ∃ x y z w, HexDigit a x ∧ HexDigit b y ∧ HexDigit c z ∧ HexDigit d w ∧ n = x * 4096 + y * 256 + z * 16 + w := by
  simp only [hexFour, Option.bind_eq_bind, Option.bind_eq_some_iff, Option.some.injEq, hexVal_iff]
  constructor
  · rintro ⟨x, hx, y, hy, z, hz, w, hw, rfl⟩; exact ⟨x, y, z, w, hx, hy, hz, hw, rfl⟩
  · rintro ⟨x, y, z, w, hx, hy, hz, hw, rfl⟩; exact ⟨x, hx, y, hy, z, hz, w, hw, rfl⟩

theorem HexDigit.lt {b : UInt8} {v : Nat} (h : HexDigit b v) : v < 16 := by
  unfold HexDigit at h
  omega

theorem utf8_char {n : Nat} (h : n.isValidChar) (hn : n < 65536) : utf8 n = String.utf8EncodeChar (Char.ofNat n) := by
  have e : (Char.ofNat n).val.toNat = n := by
    rw [Char.ofNat, dif_pos h]
    rfl
  simp only [String.utf8EncodeChar, e, utf8]
  split_ifs <;> first | omega | rfl | skip
  · rw [show n / 64 % 32 + 192 = 192 + n / 64 by omega, show n % 64 + 128 = 128 + n % 64 by omega]
  · rw [show n / 4096 % 16 + 224 = 224 + n / 4096 by omega, show n / 64 % 64 + 128 = 128 + n / 64 % 64 by omega,
      show n % 64 + 128 = 128 + n % 64 by omega]

theorem unescape_iff {c b : UInt8} : unescape c = some b ↔ (c, b) ∈ shortEscapes := by
  unfold unescape shortEscapes
  simp only [List.mem_cons, Prod.mk.injEq, List.not_mem_nil, or_false]
  split_ifs with h1 h2 h3 h4 h5 h6
  · rcases h1 with rfl | rfl | rfl <;> simp [eq_comm]
  · subst h2; simp [eq_comm]
  · subst h3; simp [eq_comm]
  · subst h4; simp [eq_comm]
  · subst h5; simp [eq_comm]
  · subst h6; simp [eq_comm]
  · simp only [not_or] at h1
    simp [h1, h2, h3, h4, h5, h6]

/-- the escape of a character -/
theorem escRest_iff {s e r : Bytes} : escRest s = some (e, r) ↔
    (∃ c b, s = c :: r ∧ (c, b) ∈ shortEscapes ∧ e = [b]) ∨
    ∃ a b c d x y z w, s = 117 :: a :: b :: c :: d :: r ∧ HexDigit a x ∧ HexDigit b y ∧ HexDigit c z ∧ HexDigit d w ∧
      (x * 4096 + y * 256 + z * 16 + w).isValidChar ∧ e = String.utf8EncodeChar (Char.ofNat (x * 4096 + y * 256 + z * 16 + w)) := by
  have key : ∀ {n : Nat}, n < 65536 → (¬ (55296 ≤ n ∧ n < 57344) ↔ n.isValidChar) := by
    intro n hn
    unfold Nat.isValidChar
    omega
  constructor
  · intro h
    match s, h with
    | c :: r', h =>
      by_cases hc : c = 117
      · subst hc
        match r', h with
        | a :: b :: c :: d :: r'', h =>
          simp only [escRest, if_true, Option.bind_eq_bind, Option.bind_eq_some_iff] at h
          obtain ⟨n, hn, h⟩ := h
          obtain ⟨x, y, z, w, hx, hy, hz, hw, rfl⟩ := hexFour_iff.mp hn
          have := hx.lt; have := hy.lt; have := hz.lt; have := hw.lt
          split_ifs at h with hs
          have hv := (key (by omega)).mp hs
          simp only [Option.some.injEq, Prod.mk.injEq] at h
          obtain ⟨rfl, rfl⟩ := h
          exact .inr ⟨a, b, c, d, x, y, z, w, rfl, hx, hy, hz, hw, hv, utf8_char hv (by omega)⟩
        | [], h => simp [escRest] at h
        | [_], h => simp [escRest] at h
        | [_, _], h => simp [escRest] at h
        | [_, _, _], h => simp [escRest] at h
      · simp only [escRest, if_neg hc, Option.bind_eq_bind, Option.bind_eq_some_iff, Option.some.injEq, Prod.mk.injEq] at h
        obtain ⟨b, hb, rfl, rfl⟩ := h
        exact .inl ⟨c, b, rfl, unescape_iff.mp hb, rfl⟩
    | [], h => simp [escRest] at h
  · rintro (⟨c, b, rfl, h, rfl⟩ | ⟨a, b, c, d, x, y, z, w, rfl, hx, hy, hz, hw, hv, rfl⟩)
    · have hc : c ≠ 117 := by
        rintro rfl
        revert h
        simp [shortEscapes]
      simp only [escRest, if_neg hc, unescape_iff.mpr h, Option.bind_eq_bind, Option.bind_some]
    · have := hx.lt; have := hy.lt; have := hz.lt; have := hw.lt
      simp only [escRest, if_true, hexFour_iff.mpr ⟨x, y, z, w, hx, hy, hz, hw, rfl⟩, Option.bind_eq_bind, Option.bind_some]
      rw [if_neg ((key (by omega)).mpr hv), utf8_char hv (by omega)]

/-! ### Strings and numbers -/

theorem strRest_chars {s t : Bytes} (h : Chars s t) : ∀ (n : Nat) (r : Bytes), t.length < n → strRest n (t ++ 34 :: r) = some (s, r) := by
  induction h with
  | nil =>
    intro n r hn
    obtain ⟨m, rfl⟩ : ∃ m, n = m + 1 := ⟨n - 1, by simp at hn; omega⟩
    rfl
  | plain b s t h1 h2 h3 _ ih =>
    intro n r hn
    obtain ⟨m, rfl⟩ : ∃ m, n = m + 1 := ⟨n - 1, by simp at hn; omega⟩
    rw [List.cons_append, strRest, if_neg h2, if_neg h3, if_neg (by omega), ih m r (by simp at hn; omega)]
    rfl
  | short c b s t h1 _ ih =>
    intro n r hn
    obtain ⟨m, rfl⟩ : ∃ m, n = m + 1 := ⟨n - 1, by simp at hn; omega⟩
    rw [List.cons_append, List.cons_append, strRest, if_neg (by decide), if_pos rfl, escRest_iff.mpr (.inl ⟨c, b, rfl, h1, rfl⟩)]
    simp only [Option.bind_eq_bind, Option.bind_some]
    rw [ih m r (by simp at hn; omega)]
    rfl
  | unicode a b c d x y z w s t ha hb hc hd hv _ ih =>
    intro n r hn
    obtain ⟨m, rfl⟩ : ∃ m, n = m + 1 := ⟨n - 1, by simp at hn; omega⟩
    simp only [List.cons_append]
    rw [strRest, if_neg (by decide), if_pos rfl,
      escRest_iff.mpr (.inr ⟨a, b, c, d, x, y, z, w, rfl, ha, hb, hc, hd, hv, rfl⟩)]
    simp only [Option.bind_eq_bind, Option.bind_some]
    rw [ih m r (by simp at hn; omega)]
    rfl

theorem chars_strRest : ∀ (n : Nat) (x s r : Bytes), strRest n x = some (s, r) → ∃ t, x = t ++ 34 :: r ∧ Chars s t
  | 0, _, _, _, h => by simp [strRest] at h
  | _ + 1, [], _, _, h => by simp [strRest] at h
  | n + 1, b :: x, s, r, h => by
    rw [strRest] at h
    split_ifs at h with h1 h2 h3
    · simp only [Option.some.injEq, Prod.mk.injEq] at h
      obtain ⟨rfl, rfl⟩ := h
      exact ⟨[], by rw [h1]; rfl, .nil⟩
    · simp only [Option.bind_eq_bind, Option.bind_eq_some_iff, Option.some.injEq, Prod.mk.injEq] at h
      obtain ⟨⟨e, x'⟩, he, ⟨s', r'⟩, hs, rfl, rfl⟩ := h
      obtain ⟨t, rfl, ht⟩ := chars_strRest n x' s' r' hs
      subst h2
      rcases escRest_iff.mp he with ⟨c, b, rfl, hc, rfl⟩ | ⟨a, b, c, d, x, y, z, w, rfl, hx, hy, hz, hw, hv, rfl⟩
      · exact ⟨92 :: c :: t, rfl, .short c b _ _ hc ht⟩
      · exact ⟨92 :: 117 :: a :: b :: c :: d :: t, rfl, .unicode a b c d x y z w _ _ hx hy hz hw hv ht⟩
    · simp only [Option.bind_eq_bind, Option.bind_eq_some_iff, Option.some.injEq, Prod.mk.injEq] at h
      obtain ⟨⟨s', r'⟩, hs, rfl, rfl⟩ := h
      obtain ⟨t, rfl, ht⟩ := chars_strRest n x s' r' hs
      exact ⟨b :: t, rfl, .plain b _ _ (by omega) h1 h2 ht⟩

theorem isDigit_iff (b : UInt8) : isDigit b = true ↔ 48 ≤ b.toNat ∧ b.toNat ≤ 57 := by
  simp only [isDigit, Bool.and_eq_true, decide_eq_true_eq]
  omega

theorem digits_fold (t : Bytes) :
    t.foldl (fun n (d : UInt8) => n * 10 + (d.toNat - 48)) 0 = Nat.ofDigits 10 (t.reverse.map (fun b => b.toNat - 48)) := by
  induction t using List.reverseRecOn with
  | nil => rfl
  | append_singleton t b ih =>
    rw [List.foldl_append, ih, List.foldl_cons, List.foldl_nil, List.reverse_append, List.reverse_singleton, List.singleton_append,
      List.map_cons, Nat.ofDigits_cons]
    omega

theorem numRest_number {n : Nat} {t : Bytes} (h : Number n t) (r : Bytes) (hr : Ends r) : numRest (t ++ r) = some (n, r) := by
  obtain ⟨h1, h2, h3, h4⟩ := h
  obtain ⟨e1, e2⟩ := span_digits t r (fun b hb => (isDigit_iff b).mpr (h2 b hb)) hr
  unfold numRest
  simp only [e1, e2, if_neg h1]
  rw [if_neg (fun h => h.2 (by rw [h3 h.1]; rfl)), if_neg, digits_fold, ← h4]
  cases r with
  | nil => simp
  | cons b r => simp [(hr b rfl).2]

theorem number_numRest {s r : Bytes} {n : Nat} (h : numRest s = some (n, r)) : ∃ t, s = t ++ r ∧ Number n t := by
  unfold numRest at h
  simp only at h
  split_ifs at h with h1 h2 h3
  simp only [Option.some.injEq, Prod.mk.injEq] at h
  obtain ⟨rfl, rfl⟩ := h
  refine ⟨s.takeWhile isDigit, List.takeWhile_append_dropWhile.symm, h1,
    fun b hb => (isDigit_iff b).mp (List.all_eq_true.mp List.all_takeWhile _ hb), fun hh => ?_, digits_fold _⟩
  have hl : (s.takeWhile isDigit).length = 1 := by
    by_contra hne
    exact h2 ⟨hh, hne⟩
  obtain ⟨b, hb⟩ := List.length_eq_one_iff.mp hl
  rw [hb] at hh ⊢
  simpa using hh

theorem number_cons {n : Nat} {t : Bytes} (h : Number n t) : ∃ b u, t = b :: u ∧ isDigit b = true := by
  obtain ⟨h1, h2, -, -⟩ := h
  cases t with
  | nil => exact absurd rfl h1
  | cons b u => exact ⟨b, u, rfl, (isDigit_iff b).mpr (h2 b List.mem_cons_self)⟩

/-! ### The reader takes every text of the grammar -/

theorem text_head {d : Nat} {j : Json} {t : Bytes} (h : JText d j t) : ∃ b u, t = b :: u ∧ isSpace b = false ∧ b ≠ 93 := by
  cases h with
  | num d n t hn =>
    obtain ⟨b, u, e, hb⟩ := number_cons hn
    exact ⟨b, u, e, digit_not_space hb, digit_ne hb rfl⟩
  | _ => exact ⟨_, _, rfl, rfl, by decide⟩

theorem jelems_head {d : Nat} {l : List Json} {t : Bytes} (h : JElems d l t) (r : Bytes) : (skipSpace (t ++ r)).head? ≠ some 93 := by
  cases h with
  | last d j w t v hw hj hv =>
    obtain ⟨b, u, rfl, hb, hne⟩ := text_head hj
    rw [List.append_assoc, skip_spaces (blank_spaces.mp hw), List.append_assoc, List.cons_append, skip_cons hb]
    simpa using hne
  | more d j l w t v u hw hj hv hl =>
    obtain ⟨b, u, rfl, hb, hne⟩ := text_head hj
    rw [List.append_assoc, skip_spaces (blank_spaces.mp hw), List.append_assoc, List.cons_append, skip_cons hb]
    simpa using hne

theorem jmembers_head {d : Nat} {l : List (Bytes × Json)} {t : Bytes} (h : JMembers d l t) (r : Bytes) :
    (skipSpace (t ++ r)).head? ≠ some 125 := by
  cases h with
  | last d k j w c x w' t v hw =>
    rw [List.append_assoc, skip_spaces (blank_spaces.mp hw), List.cons_append, skip_cons rfl]
    simp
  | more d k j l w c x w' t v u hw =>
    rw [List.append_assoc, skip_spaces (blank_spaces.mp hw), List.cons_append, skip_cons rfl]
    simp

theorem read_grammar (n : Nat) :
    (∀ d j t, JText d j t → t.length < n → ∀ w r, Blank w → Ends r → readValue n (d + 1) (w ++ (t ++ r)) = some (j, r)) ∧
    (∀ d l t, JElems d l t → t.length < n → ∀ r, readElems n (d + 1) (t ++ r) = some (l, r)) ∧
    (∀ d l t, JMembers d l t → t.length < n → ∀ r, readMembers n (d + 1) (t ++ r) = some (l, r)) := by
  induction n with
  | zero => exact ⟨fun _ _ _ _ h => absurd h (by omega), fun _ _ _ _ h => absurd h (by omega), fun _ _ _ _ h => absurd h (by omega)⟩
  | succ n ih =>
    obtain ⟨ih1, ih2, ih3⟩ := ih
    refine ⟨?_, ?_, ?_⟩
    · intro d j t hj hn w r hw hr
      rw [readValue, skip_spaces (blank_spaces.mp hw)]
      cases hj with
      | null => rfl
      | true => rfl
      | false => rfl
      | num d m t ht =>
        have hm := numRest_number ht r hr
        obtain ⟨b, u, rfl, hb⟩ := number_cons ht
        rw [List.cons_append] at hm ⊢
        rw [skip_cons (digit_not_space hb)]
        simp only [if_neg (digit_ne hb (show isDigit 110 = false from rfl)), if_neg (digit_ne hb (show isDigit 116 = false from rfl)),
          if_neg (digit_ne hb (show isDigit 102 = false from rfl)), if_neg (digit_ne hb (show isDigit 34 = false from rfl)),
          if_neg (digit_ne hb (show isDigit 91 = false from rfl)), if_neg (digit_ne hb (show isDigit 123 = false from rfl)), hm]
        rfl
      | str d s t hs =>
        simp only [List.cons_append, List.append_assoc, List.nil_append]
        rw [skip_cons rfl]
        change (strRest _ _).map _ = _
        rw [strRest_chars hs _ _ (by simp)]
        rfl
      | arrNil d v hv =>
        rw [List.cons_append, skip_cons rfl]
        change (if d + 1 + 1 ≤ 1 then none else if (skipSpace ((v ++ [93]) ++ r)).head? = some 93 then _ else _) = _
        rw [List.append_assoc, skip_spaces (blank_spaces.mp hv), List.cons_append, List.nil_append, skip_cons rfl, if_neg (by omega)]
        rfl
      | arr d l u hl =>
        simp only [List.length_cons] at hn
        rw [List.cons_append, skip_cons rfl]
        change (if d + 1 + 1 ≤ 1 then none else if (skipSpace (u ++ r)).head? = some 93 then _ else (readElems n (d + 1) (u ++ r)).map _) = _
        rw [if_neg (by omega), if_neg (jelems_head hl r), ih2 d l u hl (by omega) r]
        rfl
      | objNil d v hv =>
        rw [List.cons_append, skip_cons rfl]
        change (if d + 1 + 1 ≤ 1 then none else if (skipSpace ((v ++ [125]) ++ r)).head? = some 125 then _ else _) = _
        rw [List.append_assoc, skip_spaces (blank_spaces.mp hv), List.cons_append, List.nil_append, skip_cons rfl, if_neg (by omega)]
        rfl
      | obj d l u hl =>
        simp only [List.length_cons] at hn
        rw [List.cons_append, skip_cons rfl]
        change (if d + 1 + 1 ≤ 1 then none else if (skipSpace (u ++ r)).head? = some 125 then _ else (readMembers n (d + 1) (u ++ r)).map _) = _
        rw [if_neg (by omega), if_neg (jmembers_head hl r), ih3 d l u hl (by omega) r]
        rfl
    · intro d l t hl hn r
      cases hl with
      | last d j w t v hw hj hv =>
        simp only [List.length_append, List.length_cons, List.length_nil] at hn
        simp only [List.append_assoc, List.cons_append, List.nil_append]
        rw [readElems, ih1 d j t hj (by omega) w _ hw (ends_spaces (blank_spaces.mp hv) (ends_cons rfl rfl _))]
        simp only [Option.bind_eq_bind, Option.bind_some]
        rw [skip_spaces (blank_spaces.mp hv), skip_cons rfl]
        rfl
      | more d j l w t v u hw hj hv hl =>
        simp only [List.length_append, List.length_cons] at hn
        simp only [List.append_assoc, List.cons_append]
        rw [readElems, ih1 d j t hj (by omega) w _ hw (ends_spaces (blank_spaces.mp hv) (ends_cons rfl rfl _))]
        simp only [Option.bind_eq_bind, Option.bind_some]
        rw [skip_spaces (blank_spaces.mp hv), skip_cons rfl]
        change (readElems n (d + 1) (u ++ r)).bind _ = _
        rw [ih2 d l u hl (by omega) r]
        rfl
    · intro d l t hl hn r
      cases hl with
      | last d k j w c x w' t v hw hc hx hw' hj hv =>
        simp only [List.length_append, List.length_cons, List.length_nil] at hn
        simp only [List.append_assoc, List.cons_append, List.nil_append]
        rw [readMembers, skip_spaces (blank_spaces.mp hw), skip_cons rfl]
        change (strRest _ _).bind _ = _
        rw [strRest_chars hc _ _ (by simp only [List.length_append, List.length_cons]; omega)]
        simp only [Option.bind_some]
        rw [skip_spaces (blank_spaces.mp hx), skip_cons rfl]
        change (readValue n (d + 1) (w' ++ (t ++ (v ++ 125 :: r)))).bind _ = _
        rw [ih1 d j t hj (by omega) w' _ hw' (ends_spaces (blank_spaces.mp hv) (ends_cons rfl rfl _))]
        simp only [Option.bind_some]
        rw [skip_spaces (blank_spaces.mp hv), skip_cons rfl]
        rfl
      | more d k j l w c x w' t v u hw hc hx hw' hj hv hl =>
        simp only [List.length_append, List.length_cons] at hn
        simp only [List.append_assoc, List.cons_append]
        rw [readMembers, skip_spaces (blank_spaces.mp hw), skip_cons rfl]
        change (strRest _ _).bind _ = _
        rw [strRest_chars hc _ _ (by simp only [List.length_append, List.length_cons]; omega)]
        simp only [Option.bind_some]
        rw [skip_spaces (blank_spaces.mp hx), skip_cons rfl]
        change (readValue n (d + 1) (w' ++ (t ++ (v ++ 44 :: (u ++ r))))).bind _ = _
        rw [ih1 d j t hj (by omega) w' _ hw' (ends_spaces (blank_spaces.mp hv) (ends_cons rfl rfl _))]
        simp only [Option.bind_some]
        rw [skip_spaces (blank_spaces.mp hv), skip_cons rfl]
        change (readMembers n (d + 1) (u ++ r)).bind _ = _
        rw [ih3 d l u hl (by omega) r]
        rfl

/-! ### The reader takes nothing else -/

theorem take_eq {k : Nat} {r l : Bytes} (h : r.take k = l) : r = l ++ r.drop k := by rw [← h, List.take_append_drop]

theorem tail_of_head {s : Bytes} {b : UInt8} (h : s.head? = some b) : s = b :: s.tail := by
  cases s with
  | nil => simp at h
  | cons c s => simpa using h

theorem grammar_read (n : Nat) :
    (∀ d s j r, readValue n (d + 1) s = some (j, r) → ∃ w t, s = w ++ (t ++ r) ∧ Blank w ∧ JText d j t) ∧
    (∀ d s l r, readElems n (d + 1) s = some (l, r) → ∃ t, s = t ++ r ∧ JElems d l t) ∧
    (∀ d s l r, readMembers n (d + 1) s = some (l, r) → ∃ t, s = t ++ r ∧ JMembers d l t) := by
  induction n with
  | zero =>
    refine ⟨fun d s j r h => ?_, fun d s l r h => ?_, fun d s l r h => ?_⟩
    · simp [readValue] at h
    · simp [readElems] at h
    · simp [readMembers] at h
  | succ n ih =>
    obtain ⟨ih1, ih2, ih3⟩ := ih
    refine ⟨?_, ?_, ?_⟩
    · intro d s j r h
      rw [readValue] at h
      split at h
      · cases h
      rename_i b x hs
      obtain ⟨w, hw, rfl⟩ := skip_seen hs
      refine ⟨w, ?_⟩
      suffices hh : ∃ t, b :: x = t ++ r ∧ JText d j t by
        obtain ⟨t, e, ht⟩ := hh
        exact ⟨t, by rw [e], hw, ht⟩
      split_ifs at h with h1 a1 h2 a2 h3 a3 h4 h5 a5 c5 h6 a6 c6
      · simp only [Option.some.injEq, Prod.mk.injEq] at h
        obtain ⟨rfl, rfl⟩ := h
        exact ⟨_, by rw [h1]; nth_rw 1 [take_eq a1]; rfl, .null d⟩
      · simp only [Option.some.injEq, Prod.mk.injEq] at h
        obtain ⟨rfl, rfl⟩ := h
        exact ⟨_, by rw [h2]; nth_rw 1 [take_eq a2]; rfl, .true d⟩
      · simp only [Option.some.injEq, Prod.mk.injEq] at h
        obtain ⟨rfl, rfl⟩ := h
        exact ⟨_, by rw [h3]; nth_rw 1 [take_eq a3]; rfl, .false d⟩
      · obtain ⟨⟨u, r'⟩, hu, e⟩ := Option.map_eq_some_iff.mp h
        simp only [Prod.mk.injEq] at e
        obtain ⟨rfl, rfl⟩ := e
        obtain ⟨t, rfl, ht⟩ := chars_strRest _ _ _ _ hu
        exact ⟨34 :: (t ++ [34]), by rw [h4]; simp, .str d _ t ht⟩
      · simp only [Option.some.injEq, Prod.mk.injEq] at h
        obtain ⟨rfl, rfl⟩ := h
        obtain ⟨v, hv, e⟩ := skip_split x
        obtain ⟨d, rfl⟩ : ∃ k, d = k + 1 := ⟨d - 1, by omega⟩
        exact ⟨91 :: (v ++ [93]), by rw [h5]; nth_rw 1 [e]; rw [tail_of_head c5]; simp, .arrNil d v hv⟩
      · obtain ⟨⟨u, r'⟩, hu, e⟩ := Option.map_eq_some_iff.mp h
        simp only [Prod.mk.injEq] at e
        obtain ⟨rfl, rfl⟩ := e
        obtain ⟨d, rfl⟩ : ∃ k, d = k + 1 := ⟨d - 1, by omega⟩
        obtain ⟨t, rfl, ht⟩ := ih2 d _ _ _ hu
        exact ⟨91 :: t, by rw [h5]; rfl, .arr d _ t ht⟩
      · simp only [Option.some.injEq, Prod.mk.injEq] at h
        obtain ⟨rfl, rfl⟩ := h
        obtain ⟨v, hv, e⟩ := skip_split x
        obtain ⟨d, rfl⟩ : ∃ k, d = k + 1 := ⟨d - 1, by omega⟩
        exact ⟨123 :: (v ++ [125]), by rw [h6]; nth_rw 1 [e]; rw [tail_of_head c6]; simp, .objNil d v hv⟩
      · obtain ⟨⟨u, r'⟩, hu, e⟩ := Option.map_eq_some_iff.mp h
        simp only [Prod.mk.injEq] at e
        obtain ⟨rfl, rfl⟩ := e
        obtain ⟨d, rfl⟩ : ∃ k, d = k + 1 := ⟨d - 1, by omega⟩
        obtain ⟨t, rfl, ht⟩ := ih3 d _ _ _ hu
        exact ⟨123 :: t, by rw [h6]; rfl, .obj d _ t ht⟩
      · obtain ⟨⟨u, r'⟩, hu, e⟩ := Option.map_eq_some_iff.mp h
        simp only [Prod.mk.injEq] at e
        obtain ⟨rfl, rfl⟩ := e
        obtain ⟨t, e, ht⟩ := number_numRest hu
        exact ⟨t, e, .num d _ t ht⟩
    · intro d s l r h
      rw [readElems] at h
      simp only [Option.bind_eq_bind, Option.bind_eq_some_iff] at h
      obtain ⟨⟨j, r1⟩, hj, h⟩ := h
      obtain ⟨w, t, rfl, hw, ht⟩ := ih1 d _ _ _ hj
      simp only at h
      split at h
      · cases h
      rename_i b x hs
      obtain ⟨v, hv, rfl⟩ := skip_seen hs
      split_ifs at h with h1 h2
      · simp only [Option.some.injEq, Prod.mk.injEq] at h
        obtain ⟨rfl, rfl⟩ := h
        exact ⟨_, by rw [h1]; simp, .last d j w t v hw ht hv⟩
      · simp only [Option.bind_eq_some_iff, Option.some.injEq, Prod.mk.injEq] at h
        obtain ⟨⟨l', r'⟩, hl, rfl, rfl⟩ := h
        obtain ⟨u, rfl, hu⟩ := ih2 d _ _ _ hl
        exact ⟨_, by rw [h2]; simp, .more d j _ w t v u hw ht hv hu⟩
    · intro d s l r h
      rw [readMembers] at h
      split at h
      · cases h
      rename_i b x hs
      obtain ⟨w, hw, rfl⟩ := skip_seen hs
      split_ifs at h with h0
      simp only [Option.bind_eq_bind, Option.bind_eq_some_iff] at h
      obtain ⟨⟨k, r0⟩, hk, h⟩ := h
      obtain ⟨c, rfl, hc⟩ := chars_strRest _ _ _ _ hk
      simp only at h
      split at h
      · cases h
      rename_i b1 x1 hs1
      obtain ⟨y, hy, rfl⟩ := skip_seen hs1
      split_ifs at h with h1
      simp only [Option.bind_eq_some_iff] at h
      obtain ⟨⟨j, r1⟩, hj, h⟩ := h
      obtain ⟨w', t, rfl, hw', ht⟩ := ih1 d _ _ _ hj
      simp only at h
      split at h
      · cases h
      rename_i b2 x2 hs2
      obtain ⟨v, hv, rfl⟩ := skip_seen hs2
      split_ifs at h with h2 h3
      · simp only [Option.some.injEq, Prod.mk.injEq] at h
        obtain ⟨rfl, rfl⟩ := h
        exact ⟨_, by rw [h0, h1, h2]; simp, .last d k j w c y w' t v hw hc hy hw' ht hv⟩
      · simp only [Option.bind_eq_some_iff, Option.some.injEq, Prod.mk.injEq] at h
        obtain ⟨⟨l', r'⟩, hl, rfl, rfl⟩ := h
        obtain ⟨u, rfl, hu⟩ := ih3 d _ _ _ hl
        exact ⟨_, by rw [h0, h1, h3]; simp, .more d k j _ w c y w' t v u hw hc hy hw' ht hv hu⟩

/-- **C114**: the texts that are accepted are exactly the documents of the grammar, nested at most 127 levels deep, and they are read as
what they mean. -/
theorem C114_accepted_iff_document (t : Bytes) (j : Json) : parseJson t = some j ↔ Document j t := by
  constructor
  · intro h
    unfold parseJson at h
    split at h
    · cases h
    rename_i j' r hr
    split_ifs at h with hs
    cases h
    obtain ⟨w, u, e, hw, hu⟩ := (grammar_read _).1 127 _ _ _ hr
    obtain ⟨v, hv, ev⟩ := skip_split r
    rw [hs, List.append_nil] at ev
    exact ⟨w, u, r, e, hw, ev ▸ hv, hu⟩
  · rintro ⟨w, u, v, rfl, hw, hv, hu⟩
    have hends : Ends v := by
      have := ends_spaces (blank_spaces.mp hv) (r := []) (by intro b hb; simp at hb)
      rwa [List.append_nil] at this
    unfold parseJson
    rw [(read_grammar _).1 127 j u hu (by simp only [List.length_append]; omega) w v hw hends]
    have e := skip_spaces (blank_spaces.mp hv) []
    rw [List.append_nil] at e
    simp only [e]
    rfl

/-- **C114**: no text has two meanings. -/
theorem C114_one_meaning {t : Bytes} {i j : Json} (hi : Document i t) (hj : Document j t) : i = j := by
  have h1 := (C114_accepted_iff_document t i).mpr hi
  have h2 := (C114_accepted_iff_document t j).mpr hj
  rw [h1] at h2
  exact Option.some.inj h2

end Verif.Serde
