import Verif.Algebra.PointCodecProps
import Verif.Serde.ExactPoolPieces

/-!
C115: the points in a note can be followed by any bytes.  `SECQ256K1G1::from_compressed_bytes` (algebra/src/secq256k1.rs:345-355) reads a point
from the front of the bytes it is given and drops the rest, and serde gives it all bytes of the field (algebra/src/lib.rs:92-105).
-/

namespace Verif.Serde

open Verif.Xfr Verif.Anon

/-- `s'` is `s` with the bytes `t` inserted behind one of its byte strings, whose length is adjusted -/
def Padded (t s s' : Bytes) : Prop :=
  ∃ u b v, s = u ++ (leBytes 8 b.length ++ (b ++ v)) ∧ s' = u ++ (leBytes 8 (b.length + t.length) ++ (b ++ (t ++ v)))

theorem Padded.length {t s s' : Bytes} (h : Padded t s s') : s'.length = s.length + t.length := by
  obtain ⟨u, b, v, rfl, rfl⟩ := h
  simp only [List.length_append, leBytes_length]
  omega

theorem Padded.before {t s s' : Bytes} (h : Padded t s s') (u : Bytes) : Padded t (u ++ s) (u ++ s') := by
  obtain ⟨u', b, v, rfl, rfl⟩ := h
  exact ⟨u ++ u', b, v, by rw [List.append_assoc], by rw [List.append_assoc]⟩

theorem Padded.behind {t s s' : Bytes} (h : Padded t s s') (v : Bytes) : Padded t (s ++ v) (s' ++ v) := by
  obtain ⟨u, b, v', rfl, rfl⟩ := h
  exact ⟨u, b, v' ++ v, by simp only [List.append_assoc], by simp only [List.append_assoc]⟩

section
variable {K : Type} (blsR : Bytes → Res K) {P : SimFr.Params} {Mp : Type} (C : Codec.ArkPoint) (L : C.Laws) (fscR : Bytes → Res (ZMod P.r))
  (mulR : Bytes → Res Mp)

include L

theorem pad_fold {f : FoldInst P K C.P Mp} (hf : f.coms ≠ []) {x : Bytes} (h : FoldPieces blsR C.fromBytes fscR mulR f x) (t : Bytes)
    (ht : x.length + t.length < 2 ^ 64) : ∃ y, Padded t x y ∧ FoldPieces blsR C.fromBytes fscR mulR f y := by
  obtain ⟨x1, h1, x2, ⟨hl, xs, hx, rfl⟩, x3, h3, rfl⟩ := h
  cases hc : f.coms with
  | nil => exact absurd hc hf
  | cons c l =>
    rw [hc] at hx hl
    cases hx with
    | @cons _ x _ xs hx hxs =>
      obtain ⟨b, hb, hp, rfl⟩ := hx
      have hp' : C.fromBytes (b ++ t) = .ok c :=
        ((Codec.C86_point_accepts C L _).2.2 c).mpr ((((Codec.C86_point_accepts C L _).2.2 c).mp hp).trans (List.prefix_append _ _))
      have hb' : (b ++ t).length < 2 ^ 64 := by
        simp only [List.length_append, List.flatten_cons] at ht ⊢
        omega
      have k : Pieces (Piece C.fromBytes) f.coms (leBytes 8 (c :: l).length ++ ((leBytes 8 (b ++ t).length ++ (b ++ t)) :: xs).flatten) := by
        rw [hc]
        exact ⟨hl, _, .cons ⟨b ++ t, hb', hp', rfl⟩ hxs, rfl⟩
      refine ⟨_, ?_, x1, h1, _, k, x3, h3, rfl⟩
      refine Padded.before (Padded.behind (Padded.before ?_ _) _) _
      exact ⟨[], b, xs.flatten, by simp, by simp⟩

/-- C115 is violated without a bound on the length: to the bytes of an anonymous transfer, of whatever spelling, any bytes at all can be added
behind its first folding commitment; the same note is read. -/
theorem C115_padding_violated {Pf A : Type} (pfR : WPlonk → Res Pf) (apkR : Bytes → Res A) (s r : Bytes) (n : Anon.XfrNote P K A Pf C.P Mp)
    (hn : n.folding.coms ≠ []) (h : readAXfrNote bincodeIn blsR pfR C.fromBytes fscR mulR apkR s = .ok (n, r)) (t : Bytes)
    (ht : s.length + t.length < 2 ^ 64) :
    ∃ s', Padded t s s' ∧ readAXfrNote bincodeIn blsR pfR C.fromBytes fscR mulR apkR s' = .ok (n, r) := by
  obtain ⟨x1, h1, x2, h2, x3, h3, x4, h4, x5, h5, x6, h6, rfl⟩ := (C115_anonymous_transfer_pieces_partial _ _ _ _ _ _ _ _ _).mp h
  obtain ⟨y, hy, h6'⟩ := pad_fold blsR C L fscR mulR hn h6 t (by simp only [List.length_append] at ht; omega)
  exact ⟨_, ((((((((hy.behind r).before _).before _).before _).before _).before _).before _).before _),
    (C115_anonymous_transfer_pieces_partial _ _ _ _ _ _ _ _ _).mpr ⟨x1, h1, x2, h2, x3, h3, x4, h4, x5, h5, y, h6', rfl⟩⟩

/-- C115: The same for the two notes that lead out of the pool. -/
theorem C115_padding_out_violated {S : Types} (R : Parse S) {Pf : Type} (pfR : WPlonk → Res Pf) {Q : SimFr.Params} (ptR : Bytes → Res S.G)
    (scR : Bytes → Res (ZMod Q.r)) (t : Bytes) :
    (∀ s r (n : AbarToArNote S P K Pf C.P Mp × UInt64 × Option S.OM), n.1.folding.coms ≠ [] → s.length + t.length < 2 ^ 64 →
      readAbarToArNote bincodeIn R blsR pfR C.fromBytes fscR mulR s = .ok (n, r) →
      ∃ s', Padded t s s' ∧ readAbarToArNote bincodeIn R blsR pfR C.fromBytes fscR mulR s' = .ok (n, r)) ∧
    ∀ s r (n : AbarToBarNote S P Q K Pf C.P Mp × UInt64 × Option S.OM), n.1.folding.coms ≠ [] → s.length + t.length < 2 ^ 64 →
      readAbarToBarNote bincodeIn R blsR pfR ptR scR C.fromBytes fscR mulR s = .ok (n, r) →
      ∃ s', Padded t s s' ∧ readAbarToBarNote bincodeIn R blsR pfR ptR scR C.fromBytes fscR mulR s' = .ok (n, r) := by
  refine ⟨fun s r n hn ht h => ?_, fun s r n hn ht h => ?_⟩
  · obtain ⟨e, x1, h1, x2, h2, x3, h3, x4, h4, x5, h5, rfl⟩ := (C115_abar_to_ar_pieces_partial _ _ _ _ _ _ _ _ n.1 n.2.1 n.2.2).mp h
    obtain ⟨y, hy, h5'⟩ := pad_fold blsR C L fscR mulR hn h5 t (by simp only [List.length_append, List.length_cons] at ht; omega)
    exact ⟨_, ((((((hy.behind r).before _).before [0]).before _).before _).before _).before _,
      (C115_abar_to_ar_pieces_partial _ _ _ _ _ _ _ _ n.1 n.2.1 n.2.2).mpr ⟨e, x1, h1, x2, h2, x3, h3, x4, h4, y, h5', rfl⟩⟩
  · obtain ⟨e, x1, h1, x2, h2, x6, h6, x3, h3, x4, h4, x5, h5, rfl⟩ := (C115_abar_to_bar_pieces_partial _ _ _ _ _ _ _ _ _ _ n.1 n.2.1 n.2.2).mp h
    obtain ⟨y, hy, h5'⟩ := pad_fold blsR C L fscR mulR hn h5 t (by simp only [List.length_append, List.length_cons] at ht; omega)
    exact ⟨_, (((((((hy.behind r).before _).before [0]).before _).before _).before _).before _).before _,
      (C115_abar_to_bar_pieces_partial _ _ _ _ _ _ _ _ _ _ n.1 n.2.1 n.2.2).mpr ⟨e, x1, h1, x2, h2, x6, h6, x3, h3, x4, h4, y, h5', rfl⟩⟩

end

end Verif.Serde
