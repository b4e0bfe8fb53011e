import Verif.Serde.JsonForeign
import Verif.Serde.JsonShowsExamples

/-!
C114 on concrete texts.
-/

namespace Verif.Serde

open Verif.Xfr Verif.Anon Verif.SimFr

/-- `{"\u0062ody" : ["\u00e9\/é", 10 ] }` is a document with the name `body` -/
example : Document (.obj [(ascii! "body", .arr [.str [195, 169, 47, 195, 169], .num 10])])
    (ascii! "{\"\\u0062ody\" : [\"\\u00e9\\/" ++ [195, 169] ++ ascii! "\", 10 ] }\n") :=
  (C114_accepted_iff_document _ _).mp rfl

/-- the same from the grammar alone, without the reader: `"\u00e9"` -/
example : Document (.str [195, 169]) (ascii! " \"\\u00E9\"") :=
  ⟨[32], ascii! "\"\\u00E9\"", [], rfl, fun b hb => .inl (List.mem_singleton.mp hb), fun b hb => (by cases hb),
    .str 127 _ (ascii! "\\u00E9") (.unicode 48 48 69 57 0 0 14 9 [] [] (.inl ⟨by decide, rfl⟩) (.inl ⟨by decide, rfl⟩)
      (.inr ⟨by decide, by decide, .inr rfl⟩) (.inl ⟨by decide, rfl⟩) (by decide) .nil)⟩

/-- half of a pair of surrogates, a raw newline in a string, a leading zero, a comma at the end, something after the value, an escape
that does not exist, one quote missing, single quotes -/
example : ∀ t ∈ [ascii! "\"\\ud800\"", ascii! "\"a\nb\"", ascii! "[01]", ascii! "[1,]", ascii! "{} {}", ascii! "\"\\x41\"", ascii! "\"a",
    ascii! "{'a':1}"], ∀ j, ¬ Document j t := by
  intro t ht j h
  have h := (C114_accepted_iff_document _ _).mpr h
  have hn : parseJson t = none := by
    revert t
    simp only [List.forall_mem_cons, List.not_mem_nil, false_implies, implies_true, and_true]
    refine ⟨?_, ?_, ?_, ?_, ?_, ?_, ?_, ?_⟩ <;> intros <;> rfl
  rw [hn] at h
  cases h

/-- and so no note is read from them -/
example : fromJson (jXfrNote wireL wireParse wireSig (fun _ => newLayout)) (ascii! "\"\\ud800\"") = .err :=
  C114_other_texts_refused _ _ (fun j h => by have := (C114_accepted_iff_document _ _).mpr h; cases this)

/-- the name of the first member spelled in another way -/
theorem respelled {k : Bytes} {j : Json} {l : List (Bytes × Json)} {t c : Bytes} (h : Document (.obj ((k, j) :: l)) t) (hc : Chars k c) :
    ∃ a b, Document (.obj ((k, j) :: l)) (a ++ 34 :: (c ++ 34 :: b)) := by
  obtain ⟨w, u, v, rfl, hw, hv, hu⟩ := h
  cases hu with
  | obj d l u hm =>
    cases hm with
    | last d k j w1 c1 x w2 t1 v1 h1 h2 h3 h4 h5 h6 =>
      exact ⟨w ++ 123 :: w1, x ++ 58 :: (w2 ++ (t1 ++ (v1 ++ 125 :: v))), w, _, v, by simp, hw, hv,
        .obj 126 _ _ (.last 126 k j w1 c x w2 t1 v1 h1 hc h3 h4 h5 h6)⟩
    | more d k j l w1 c1 x w2 t1 v1 u h1 h2 h3 h4 h5 h6 h7 =>
      exact ⟨w ++ 123 :: w1, x ++ 58 :: (w2 ++ (t1 ++ (v1 ++ 44 :: (u ++ v)))), w, _, v, by simp, hw, hv,
        .obj 126 _ _ (.more 126 k j l w1 c x w2 t1 v1 u h1 hc h3 h4 h5 h6 h7)⟩

/-- C114: the note of C106, with the name `body` spelled `\u0062ody` -/
example : ∃ a b, fromJson (jXfrNote wireL wireParse wireSig (fun _ => newLayout)) (a ++ 34 :: (ascii! "\\u0062ody" ++ 34 :: b)) = .ok jsonNote := by
  obtain ⟨h1, h2⟩ := C114_transfer_foreign wireParse_of newLayout_fits jsonNote
  have hc : Chars (ascii! "body") (ascii! "\\u0062ody") := by
    obtain ⟨t, e, ht⟩ := chars_strRest 20 (ascii! "\\u0062ody\"") (ascii! "body") [] rfl
    have e' : ascii! "\\u0062ody" = t := List.append_cancel_right (bs := [34]) (e ▸ rfl)
    exact e' ▸ ht
  obtain ⟨a, b, h⟩ := respelled (k := ascii! "body") h1 hc
  exact ⟨a, b, h2 _ _ (.refl _) h⟩

/-- C114: `body` given a second time as `\u0062ody` -/
example (n : XfrNote wireT) : fromJson (jXfrNote wireL wireParse wireSig (fun _ => newLayout))
    (ascii! "{\"body\":null,\"\\u0062ody\":{},\"multisig\":{}}") ≠ .ok n :=
  C114_twice_refused wireParse_of [(ascii! "body", .null), (ascii! "body", .obj []), (ascii! "multisig", .obj [])] _
    ((C114_accepted_iff_document _ _).mp rfl) (ascii! "body") (.inl ⟨by simp, by decide⟩) n

end Verif.Serde
