import Verif.Serde.Notes
import Verif.Serde.RmpPieces
import Verif.Algebra.CodecProps

/-!
C115: how many byte strings are read as the same note.  With bincode the frame of a note (lengths, options, variants, numbers) has one
spelling, so a reader whose codecs of points, scalars and proofs accept only what they write would read one byte string as each note.  The
codecs of the library accept more: every note of the anonymous pool has a second byte string of the same length.
-/

namespace Verif.Serde

open Verif.Xfr (Types XfrAmount XfrAssetType BlindAssetRecord)
open Verif.Anon (ArToAbarBody BarToAbarBody ArToAbarNote BarToAbarNote AbarToArNote AbarToBarNote FoldInst)

/-- what is read was written -/
def Exact {α : Type} (enc : α → Bytes) (rd : Reader α) : Prop := ∀ s a r, rd s = .ok (a, r) → s = enc a ++ r

/-- a codec that accepts only what it writes -/
def Strict {α β : Type} (f : α → β) (p : β → Res α) : Prop := ∀ b x, p b = .ok x → f x = b

/-- a codec that also compares with what it would write -/
def checked {α β : Type} [DecidableEq β] (f : α → β) (p : β → Res α) (b : β) : Res α :=
  p b >>= fun x => if f x = b then .ok x else .err

/-- with the comparison every codec is strict, and it still reads what was written -/
theorem checked_strict {α β : Type} [DecidableEq β] (f : α → β) (p : β → Res α) :
    Strict f (checked f p) ∧ ∀ x, p (f x) = .ok x → checked f p (f x) = .ok x := by
  constructor
  · intro b x h
    obtain ⟨y, -, h2⟩ := Res.bind_eq_ok.mp h
    split_ifs at h2 with hb
    cases h2
    exact hb
  · intro x h
    exact Res.bind_eq_ok.mpr ⟨x, h, if_pos rfl⟩

/-! ### Pieces of bincode -/

theorem exact_readLE (w : Nat) : Exact (leBytes w) (readLE w) := by
  intro s n r h
  obtain ⟨b, rfl, rfl, rfl⟩ := readLE_ok.mp h
  rw [leBytes_ofLE]

theorem exact_bytes : Exact bincode.bytes bincodeIn.bytes := by
  intro s a r h
  simp only [bincodeIn, rbind_ok, takeBytes_ok] at h
  obtain ⟨n, t, h1, rfl, rfl⟩ := h
  rw [exact_readLE 8 _ _ _ h1]
  simp only [bincode, List.append_assoc]

theorem exact_u8 : Exact bincode.u8 bincodeIn.u8 := by
  intro s a r h
  exact nextByte_ok.mp h

theorem exact_u32 : Exact bincode.u32 bincodeIn.u32 := by
  intro s a r h
  simp only [bincodeIn, rbind_ok, rpure_ok] at h
  obtain ⟨n, t, h1, rfl, rfl⟩ := h
  obtain ⟨b, hb, rfl, rfl⟩ := readLE_ok.mp h1
  have hlt : ofLE b < 2 ^ 32 := by have := ofLE_lt b; rw [hb] at this; omega
  simp only [bincode, UInt32.toNat_ofNat_of_lt' hlt]
  rw [← hb, leBytes_ofLE]

theorem exact_u64 : Exact bincode.u64 bincodeIn.u64 := by
  intro s a r h
  simp only [bincodeIn, rbind_ok, rpure_ok] at h
  obtain ⟨n, t, h1, rfl, rfl⟩ := h
  obtain ⟨b, hb, rfl, rfl⟩ := readLE_ok.mp h1
  have hlt : ofLE b < 2 ^ 64 := by have := ofLE_lt b; rw [hb] at this; omega
  simp only [bincode, UInt64.toNat_ofNat_of_lt' hlt]
  rw [← hb, leBytes_ofLE]

theorem bincode_tuple_ok {n : Nat} {s r : Bytes} {u : Unit} : bincodeIn.tuple n s = .ok (u, r) ↔ s = r := by
  simp only [bincodeIn, rpure_ok, true_and]

theorem bincode_unit_ok {s r : Bytes} {u : Unit} : bincodeIn.unitStruct s = .ok (u, r) ↔ s = r := by
  simp only [bincodeIn, rpure_ok, true_and]

theorem exact_readN {α : Type} {enc : α → Bytes} {rd : Reader α} (h : Exact enc rd) (n : Nat) :
    ∀ s l r, readN rd n s = .ok (l, r) → l.length = n ∧ s = l.flatMap enc ++ r := by
  induction n with
  | zero =>
    intro s l r hs
    obtain ⟨rfl, rfl⟩ := rpure_ok.mp hs
    exact ⟨rfl, rfl⟩
  | succ n ih =>
    intro s l r hs
    simp only [readN, rbind_ok, rpure_ok] at hs
    obtain ⟨a, t, h1, l', t', h2, rfl, rfl⟩ := hs
    obtain ⟨e1, e2⟩ := ih _ _ _ h2
    exact ⟨by simp [e1], by rw [h _ _ _ h1, e2, List.flatMap_cons, List.append_assoc]⟩

theorem exact_vec {α : Type} {enc : α → Bytes} {rd : Reader α} (h : Exact enc rd) : Exact (serVec bincode enc) (readVec bincodeIn rd) := by
  intro s l r hs
  simp only [readVec, rbind_ok] at hs
  obtain ⟨n, t, h1, h2⟩ := hs
  obtain ⟨rfl, rfl⟩ := exact_readN h n _ _ _ h2
  rw [exact_readLE 8 _ _ _ h1]
  simp only [serVec, bincode, List.append_assoc]

theorem exact_option {α : Type} {enc : α → Bytes} {rd : Reader α} (h : Exact enc rd) :
    Exact (serOption bincode enc) (readOption bincodeIn rd) := by
  intro s o r hs
  simp only [readOption, bincodeIn, rbind_ok, nextByte_ok] at hs
  obtain ⟨b, t, ⟨m, t', rfl, h1⟩, h2⟩ := hs
  split_ifs at h1 with hm hm'
  · obtain ⟨rfl, rfl⟩ := rpure_ok.mp h1
    rw [if_neg (by simp)] at h2
    obtain ⟨rfl, rfl⟩ := rpure_ok.mp h2
    rw [hm]
    rfl
  · obtain ⟨rfl, rfl⟩ := rpure_ok.mp h1
    rw [if_pos rfl] at h2
    simp only [rbind_ok, rpure_ok] at h2
    obtain ⟨a, t, h3, rfl, rfl⟩ := h2
    rw [h _ _ _ h3, hm']
    rfl
  · exact (refuse_ok.mp h1).elim

theorem exact_leaf {α : Type} {f : α → Bytes} {p : Bytes → Res α} (hp : Strict f p) :
    Exact (fun x => bincode.bytes (f x)) (readLeaf bincodeIn p) := by
  intro s a r hs
  simp only [readLeaf, rbind_ok, lift_ok_iff] at hs
  obtain ⟨b, t, h1, h2, rfl⟩ := hs
  rw [exact_bytes _ _ _ h1, ← hp _ _ h2]

theorem exact_map {α β : Type} {enc : β → Bytes} {rd : Reader β} {f : α → β} {p : β → Res α} (h : Exact enc rd) (hp : Strict f p) :
    Exact (fun x => enc (f x)) (readMap rd p) := by
  intro s a r hs
  simp only [readMap, rbind_ok, lift_ok_iff] at hs
  obtain ⟨b, t, h1, h2, rfl⟩ := hs
  rw [h _ _ _ h1, ← hp _ _ h2]

/-! ### Parts of notes -/

theorem exact_plonk : Exact (serPlonk bincode) (readPlonk bincodeIn) := by
  intro s a r h
  simp only [readPlonk, rbind_ok, rpure_ok, bincode_tuple_ok] at h
  obtain ⟨_, _, rfl, x1, t1, h1, x2, t2, h2, x3, t3, h3, x4, t4, h4, x5, t5, h5, x6, t6, h6, x7, t7, h7, x8, t8, h8, rfl, rfl⟩ := h
  rw [exact_vec exact_bytes _ _ _ h1, exact_vec exact_bytes _ _ _ h2, exact_bytes _ _ _ h3, exact_vec exact_bytes _ _ _ h4,
    exact_bytes _ _ _ h5, exact_vec exact_bytes _ _ _ h6, exact_bytes _ _ _ h7, exact_bytes _ _ _ h8]
  simp only [serPlonk, List.append_assoc]
  rfl

theorem exact_schnorr {K G E : Type} {bls : K → Bytes} {blsR : Bytes → Res K} (hb : Strict bls blsR) {pt : G → Bytes} {ptR : Bytes → Res G}
    (ht : Strict pt ptR) {sc : E → Bytes} {scR : Bytes → Res E} (hs : Strict sc scR) :
    Exact (serSchnorrOf bincode bls pt sc) (readSchnorr bincodeIn blsR ptR scR) := by
  have hpair : Exact (fun e : E × E => bincode.tuple 2 ++ (bincode.bytes (sc e.1) ++ bincode.bytes (sc e.2))) (do
      bincodeIn.tuple 2
      let a ← readLeaf bincodeIn scR
      let b ← readLeaf bincodeIn scR
      pure (a, b)) := by
    intro s a r h
    simp only [rbind_ok, rpure_ok, bincode_tuple_ok] at h
    obtain ⟨_, _, rfl, x1, t1, h1, x2, t2, h2, rfl, rfl⟩ := h
    rw [exact_leaf hs _ _ _ h1, exact_leaf hs _ _ _ h2]
    simp only [List.append_assoc]
    rfl
  intro s a r h
  unfold readSchnorr at h
  obtain ⟨_, _, h0, h⟩ := rbind_ok.mp h
  obtain rfl := bincode_tuple_ok.mp h0
  obtain ⟨x1, t1, h1, h⟩ := rbind_ok.mp h
  obtain ⟨x2, t2, h2, h⟩ := rbind_ok.mp h
  obtain ⟨x3, t3, h3, h⟩ := rbind_ok.mp h
  obtain ⟨_, t4, h4, h⟩ := rbind_ok.mp h
  obtain rfl := bincode_unit_ok.mp h4
  obtain ⟨rfl, rfl⟩ := rpure_ok.mp h
  rw [exact_leaf hb _ _ _ h1, exact_vec (exact_leaf ht) _ _ _ h2, exact_vec hpair _ _ _ h3]
  simp only [serSchnorrOf, List.append_assoc]
  rfl

section
variable {K Pf : Type} {bls : K → Bytes} {blsR : Bytes → Res K} (hb : Strict bls blsR) {pf : Pf → WPlonk} {pfR : WPlonk → Res Pf}
  (hp : Strict pf pfR) {P : SimFr.Params} {G Mp : Type} {fpt : G → Bytes} {fsc : ZMod P.r → Bytes} {mul : Mp → Bytes} {fptR : Bytes → Res G}
  {fscR : Bytes → Res (ZMod P.r)} {mulR : Bytes → Res Mp} (hft : Strict fpt fptR) (hfs : Strict fsc fscR) (hmul : Strict mul mulR)

include hb

theorem exact_abar : Exact (fun x => bincode.tuple 1 ++ bincode.bytes (bls x)) (readAbar bincodeIn blsR) := by
  intro s a r h
  unfold readAbar at h
  obtain ⟨_, _, h0, h⟩ := rbind_ok.mp h
  obtain rfl := bincode_tuple_ok.mp h0
  exact exact_leaf hb _ _ _ h

include hft hfs hmul

theorem exact_fold : Exact (serFold bincode bls fpt fsc mul) (readFold bincodeIn blsR fptR fscR mulR) := by
  intro s a r h
  simp only [readFold, rbind_ok, rpure_ok, bincode_tuple_ok] at h
  obtain ⟨_, _, rfl, x1, t1, h1, x2, t2, h2, x3, t3, h3, rfl, rfl⟩ := h
  rw [exact_schnorr hb hft hfs _ _ _ h1, exact_vec (exact_leaf hft) _ _ _ h2, exact_leaf hmul _ _ _ h3]
  simp only [serFold, List.append_assoc]
  rfl

omit hb hft hfs hmul in
theorem exact_amemo {A : Type} {apk : A → Bytes} {apkR : Bytes → Res A} (ha : Strict apk apkR) :
    Exact (serAMemo bincode apk) (readAMemo bincodeIn apkR) := by
  intro s a r h
  simp only [readAMemo, rbind_ok, rpure_ok, bincode_tuple_ok] at h
  obtain ⟨_, _, rfl, x1, t1, h1, x2, t2, h2, rfl, rfl⟩ := h
  rw [exact_leaf ha _ _ _ h1, exact_vec exact_u8 _ _ _ h2]
  simp only [serAMemo, List.append_assoc]
  rfl

include hp

theorem exact_axfr {A : Type} {apk : A → Bytes} {apkR : Bytes → Res A} (ha : Strict apk apkR) :
    Exact (serAXfrNote bincode bls pf fpt fsc mul apk) (readAXfrNote bincodeIn blsR pfR fptR fscR mulR apkR) := by
  intro s a r h
  simp only [readAXfrNote, rbind_ok, rpure_ok, bincode_tuple_ok] at h
  obtain ⟨_, _, rfl, _, _, rfl, x1, t1, h1, x2, t2, h2, x3, t3, h3, x4, t4, h4, x5, t5, h5, x6, t6, h6, x7, t7, h7, x8, t8, h8, rfl, rfl⟩ := h
  rw [exact_vec (exact_leaf hb) _ _ _ h1, exact_vec (exact_abar hb) _ _ _ h2, exact_leaf hb _ _ _ h3, exact_u64 _ _ _ h4,
    exact_u32 _ _ _ h5, exact_vec (exact_amemo ha) _ _ _ h6, exact_map exact_plonk hp _ _ _ h7, exact_fold hb hft hfs hmul _ _ _ h8]
  simp only [serAXfrNote, List.append_assoc]
  rfl

/-- C115: Only one byte string is read as a given anonymous transfer, if the codecs of its points, scalars and proofs accept only what
they write.  What is missing is that last condition: see `C115_anonymous_transfer_violated`. -/
theorem C115_anonymous_transfer_partial {A : Type} {apk : A → Bytes} {apkR : Bytes → Res A} (ha : Strict apk apkR) (s s' r r' : Bytes)
    (n : Anon.XfrNote P K A Pf G Mp) (h : readAXfrNote bincodeIn blsR pfR fptR fscR mulR apkR s = .ok (n, r))
    (h' : readAXfrNote bincodeIn blsR pfR fptR fscR mulR apkR s' = .ok (n, r')) :
    ∃ t, s = t ++ r ∧ s' = t ++ r' ∧ t = serAXfrNote bincode bls pf fpt fsc mul apk n :=
  ⟨_, exact_axfr hb hp hft hfs hmul ha _ _ _ h, exact_axfr hb hp hft hfs hmul ha _ _ _ h', rfl⟩

end

/-! ### Records and the notes that lead into the pool -/

/-- the codecs of a record and of a signature accept only what they write -/
structure StrictParse {S : Types} (R : Parse S) (L : Leaves S) (sg : S.Sg → Bytes) : Prop where
  cg : Strict L.cg R.cg
  at' : ∀ t, L.at' (R.at' t) = t
  pk : Strict L.pk R.pk
  sg : Strict sg R.sg

/-- a number from a string of digits -/
theorem bincode_variant_ok {table : List (Bytes × Bool)} {i : Nat} {s r : Bytes} (h : bincodeIn.variant table s = .ok (i, r)) :
    i < table.length ∧ s = leBytes 4 i ++ r := by
  simp only [bincodeIn, rbind_ok] at h
  obtain ⟨j, t, h1, h2⟩ := h
  split_ifs at h2 with hj
  · obtain ⟨rfl, rfl⟩ := rpure_ok.mp h2
    exact ⟨hj, exact_readLE 4 _ _ _ h1⟩
  · exact (refuse_ok.mp h2).elim

section
variable {S : Types} {L : Leaves S} {sg : S.Sg → Bytes} {R : Parse S} (hR : StrictParse R L sg)

include hR

theorem exact_conf_amount {s r : Bytes} {lo hi : S.CG} (h : readAmount bincodeIn R s = .ok (.conf lo hi, r)) :
    s = serAmount bincode L (.conf lo hi) ++ r := by
  unfold readAmount at h
  obtain ⟨i, t, h1, h'⟩ := rbind_ok.mp h
  clear h
  obtain ⟨hi, rfl⟩ := bincode_variant_ok h1
  split_ifs at h' with h0
  · subst h0
    simp only [rbind_ok, rpure_ok, bincode_tuple_ok] at h'
    obtain ⟨_, _, rfl, x1, t1, h1, x2, t2, h2, e, rfl⟩ := h'
    cases e
    rw [exact_leaf hR.cg _ _ _ h1, exact_leaf hR.cg _ _ _ h2]
    simp only [serAmount, List.append_assoc]
    rfl
  · simp only [rbind_ok, rpure_ok] at h'
    obtain ⟨_, _, _, _, _, _, e, _⟩ := h'
    cases e

theorem exact_assetType : Exact (serAssetType bincode L) (readAssetType bincodeIn R) := by
  intro s a r h
  unfold readAssetType at h
  obtain ⟨i, t, h1, h'⟩ := rbind_ok.mp h
  clear h
  obtain ⟨hi, rfl⟩ := bincode_variant_ok h1
  split_ifs at h' with h0
  · subst h0
    simp only [rbind_ok, rpure_ok] at h'
    obtain ⟨x1, t1, h1, rfl, rfl⟩ := h'
    rw [exact_leaf hR.cg _ _ _ h1]
    simp only [serAssetType, List.append_assoc]
    rfl
  · have hi1 : i = 1 := by simp only [confTable, List.length_cons, List.length_nil] at hi; omega
    subst hi1
    obtain ⟨x1, t1, h2, h3⟩ := rbind_ok.mp h'
    obtain ⟨rfl, rfl⟩ := rpure_ok.mp h3
    clear h' h3
    unfold readArray32 at h2
    obtain ⟨_, _, h3, h4⟩ := rbind_ok.mp h2
    obtain rfl := bincode_tuple_ok.mp h3
    obtain ⟨b, t2, h5, h6⟩ := rbind_ok.mp h4
    clear h2 h4 h3 h1
    obtain ⟨-, rfl⟩ := exact_readN exact_u8 32 _ _ _ h5
    split_ifs at h6 with hl
    · obtain ⟨rfl, rfl⟩ := rpure_ok.mp h6
      simp only [serAssetType, hR.at', List.append_assoc]
      rfl
    · exact (refuse_ok.mp h6).elim

theorem exact_conf_bar {s r : Bytes} {b : BlindAssetRecord S} (hc : ∃ lo hi, b.amount = .conf lo hi)
    (h : readBar bincodeIn R s = .ok (b, r)) : s = serBar bincode L b ++ r := by
  simp only [readBar, rbind_ok, rpure_ok, bincode_tuple_ok] at h
  obtain ⟨_, _, rfl, x1, t1, h1, x2, t2, h2, x3, t3, h3, rfl, rfl⟩ := h
  obtain ⟨lo, hi, rfl⟩ := hc
  rw [exact_conf_amount hR h1, exact_assetType hR _ _ _ h2, exact_leaf hR.pk _ _ _ h3]
  simp only [serBar, List.append_assoc]
  rfl

variable {K Pf : Type} {bls : K → Bytes} {blsR : Bytes → Res K} (hb : Strict bls blsR) {pf : Pf → WPlonk} {pfR : WPlonk → Res Pf}
  (hp : Strict pf pfR)

omit hR in
theorem exact_axfrMemo : Exact (serAxfrMemo bincode) (readAxfrMemo bincodeIn) := by
  intro s a r h
  simp only [readAxfrMemo, rbind_ok, rpure_ok, bincode_tuple_ok] at h
  obtain ⟨_, _, rfl, x1, t1, h1, x2, t2, h2, rfl, rfl⟩ := h
  rw [exact_bytes _ _ _ h1, exact_vec exact_u8 _ _ _ h2]
  simp only [serAxfrMemo, List.append_assoc]
  rfl

include hb hp

/-- C115: The same for the note that brings a record with a confidential amount into the pool. -/
theorem C115_bar_to_abar_partial {Q : SimFr.Params} {pt : S.G → Bytes} {sc : ZMod Q.r → Bytes} {ptR : Bytes → Res S.G}
    {scR : Bytes → Res (ZMod Q.r)} (ht : Strict pt ptR) (hs : Strict sc scR) (s s' r r' : Bytes) (n : BarToAbarNote S Q K Pf)
    (hc : ∃ lo hi, n.body.input.amount = .conf lo hi) (h : readBarToAbarNote bincodeIn R blsR pfR ptR scR s = .ok (n, r))
    (h' : readBarToAbarNote bincodeIn R blsR pfR ptR scR s' = .ok (n, r')) :
    ∃ t, s = t ++ r ∧ s' = t ++ r' ∧ t = serBarToAbarNote bincode L sg bls pf pt sc n := by
  have key : ∀ s r, readBarToAbarNote bincodeIn R blsR pfR ptR scR s = .ok (n, r) →
      s = serBarToAbarNote bincode L sg bls pf pt sc n ++ r := by
    intro s r h
    simp only [readBarToAbarNote, readBarToAbarBody, rbind_ok, rpure_ok, bincode_tuple_ok] at h
    obtain ⟨_, _, rfl, b, t, ⟨_, _, rfl, x1, t1, h1, x2, t2, h2, _, _, rfl, x3, t3, h3, x4, t4, h4, x5, t5, h5, rfl, rfl⟩, x6, t6, h6, rfl, rfl⟩ := h
    rw [exact_conf_bar hR hc h1, exact_abar hb _ _ _ h2, exact_schnorr hb ht hs _ _ _ h3, exact_map exact_plonk hp _ _ _ h4,
      exact_axfrMemo _ _ _ h5, exact_leaf hR.sg _ _ _ h6]
    simp only [serBarToAbarNote, serBarToAbar, List.append_assoc]
    rfl
  exact ⟨_, key _ _ h, key _ _ h', rfl⟩

end

/-! ### What the codecs of the library accept -/

/-- the other string of 32 bytes that `BLSScalar::from_bytes` reads as `x`: the number plus the order of the field -/
def respell (x : ZMod Codec.bls.q) : Bytes := leBytes 32 (x.val + Codec.bls.q)

theorem respell_read (x : ZMod Codec.bls.q) : Codec.bls.fromBytes (respell x) = .ok x := by
  have : NeZero Codec.bls.q := ⟨Codec.bls_fits.pos.ne'⟩
  have hx := ZMod.val_lt x
  have hq : Codec.bls.q + Codec.bls.q < 256 ^ 32 := by decide
  rw [respell, Codec.Ark.fromBytes, if_neg (by simp), ofLE_leBytes_of_lt (by omega)]
  simp

theorem respell_length (x : ZMod Codec.bls.q) : (respell x).length = (Codec.bls.toBytes x).length := by
  rw [(Codec.C85_scalar_roundtrip Codec.bls_fits x).1, respell, leBytes_length]

theorem respell_ne (x : ZMod Codec.bls.q) : respell x ≠ Codec.bls.toBytes x := by
  have : NeZero Codec.bls.q := ⟨Codec.bls_fits.pos.ne'⟩
  have hx := ZMod.val_lt x
  have hq : Codec.bls.q + Codec.bls.q < 256 ^ 32 := by decide
  have hpos := Codec.bls_fits.pos
  rw [Codec.toBytes_eq _ Codec.bls_fits.len, respell]
  intro e
  have := leBytes_inj (by omega) (by omega) e
  omega

theorem bytes_length_congr {a b : Bytes} (h : a.length = b.length) : (bincode.bytes a).length = (bincode.bytes b).length := by
  simp only [bincode, List.length_append, leBytes_length, h]

theorem serVec_length_congr {α : Type} {f g : α → Bytes} (h : ∀ x, (f x).length = (g x).length) (l : List α) :
    (serVec bincode f l).length = (serVec bincode g l).length := by
  simp only [serVec, List.length_append, List.length_flatMap, h]

theorem bytes_ne {a b s t : Bytes} (hl : a.length = b.length) (h : a ≠ b) : bincode.bytes a ++ s ≠ bincode.bytes b ++ t := by
  intro e
  obtain ⟨e1, -⟩ := List.append_inj e (bytes_length_congr hl)
  simp only [bincode, hl] at e1
  exact h (List.append_cancel_left e1)

theorem respell_bytes (x : ZMod Codec.bls.q) : (bincode.bytes (respell x)).length = (bincode.bytes (Codec.bls.toBytes x)).length :=
  bytes_length_congr (respell_length x)

section
variable {Pf : Type} {pf : Pf → WPlonk} {pfR : WPlonk → Res Pf} (hp : ∀ x, pfR (pf x) = .ok x)
  {P Q : SimFr.Params} {G Mp : Type} {fpt : G → Bytes} {fsc : ZMod P.r → Bytes} {mul : Mp → Bytes} {fptR : Bytes → Res G}
  {fscR : Bytes → Res (ZMod P.r)} {mulR : Bytes → Res Mp} (hft : ∀ x, fptR (fpt x) = .ok x) (hfs : ∀ x, fscR (fsc x) = .ok x)
  (hmul : ∀ x, mulR (mul x) = .ok x)

theorem schnorr_length {G E : Type} (pt : G → Bytes) (sc : E → Bytes) (p : DelegatedSchnorr.Proof E G (ZMod Codec.bls.q)) :
    (serSchnorrOf bincode respell pt sc p).length = (serSchnorrOf bincode Codec.bls.toBytes pt sc p).length := by
  simp only [serSchnorrOf, List.length_append, respell_bytes]

theorem fold_length (f : FoldInst P (ZMod Codec.bls.q) G Mp) :
    (serFold bincode respell fpt fsc mul f).length = (serFold bincode Codec.bls.toBytes fpt fsc mul f).length := by
  simp only [serFold, List.length_append, schnorr_length]

include hp hft hfs hmul

/-- C115 is violated: With the scalars of the library, every anonymous transfer is read from a second byte string of the same length, in
which the nullifiers, the new commitments and the root are spelled differently.  Whoever relays the note can exchange the two. -/
theorem C115_anonymous_transfer_violated {A : Type} {apk : A → Bytes} {apkR : Bytes → Res A} (ha : ∀ x, apkR (apk x) = .ok x)
    (n : Anon.XfrNote P (ZMod Codec.bls.q) A Pf G Mp)
    (h : (serAXfrNote bincode Codec.bls.toBytes pf fpt fsc mul apk n).length < 2 ^ 32) :
    ∃ s, s ≠ serAXfrNote bincode Codec.bls.toBytes pf fpt fsc mul apk n ∧
      s.length = (serAXfrNote bincode Codec.bls.toBytes pf fpt fsc mul apk n).length ∧
      readAXfrNote bincodeIn Codec.bls.fromBytes pfR fptR fscR mulR apkR s = .ok (n, []) ∧
      readAXfrNote bincodeIn Codec.bls.fromBytes pfR fptR fscR mulR apkR
        (serAXfrNote bincode Codec.bls.toBytes pf fpt fsc mul apk n) = .ok (n, []) := by
  have e1 := serVec_length_congr respell_bytes n.body.inputs
  have e2 := serVec_length_congr (f := fun x => bincode.tuple 1 ++ bincode.bytes (respell x))
    (g := fun x => bincode.tuple 1 ++ bincode.bytes (Codec.bls.toBytes x)) (fun x => by simp only [List.length_append, respell_bytes])
    n.body.outputs
  have hl : (serAXfrNote bincode respell pf fpt fsc mul apk n).length =
      (serAXfrNote bincode Codec.bls.toBytes pf fpt fsc mul apk n).length := by
    simp only [serAXfrNote, List.length_append, respell_bytes, fold_length, e1, e2]
  refine ⟨serAXfrNote bincode respell pf fpt fsc mul apk n, ?_, hl, ?_, ?_⟩
  · intro e
    simp only [serAXfrNote, List.append_assoc] at e
    have e' := List.append_cancel_left (List.append_cancel_left e)
    have e'' := (List.append_inj (List.append_inj e' e1).2 e2).2
    exact bytes_ne (respell_length _) (respell_ne _) e''
  · have := (C98_anonymous_transfer (bls := respell) respell_read hp hft hfs hmul ha n []).1 (by rw [hl]; exact h)
    rwa [List.append_nil] at this
  · have := (C98_anonymous_transfer (fun x => (Codec.C85_scalar_roundtrip Codec.bls_fits x).2) hp hft hfs hmul ha n []).1 h
    rwa [List.append_nil] at this

variable {S : Types} {L : Leaves S} {sg : S.Sg → Bytes} {R : Parse S} (hR : R.Of L sg)

omit hft hfs hmul in
include hR in
/-- C115 is violated: the same for the notes that lead into the pool -/
theorem C115_into_pool_violated {pt : S.G → Bytes} {sc : ZMod Q.r → Bytes} {ptR : Bytes → Res S.G} {scR : Bytes → Res (ZMod Q.r)}
    (ht : ∀ x, ptR (pt x) = .ok x) (hs : ∀ x, scR (sc x) = .ok x) (n : ArToAbarNote S (ZMod Codec.bls.q) Pf)
    (m : BarToAbarNote S Q (ZMod Codec.bls.q) Pf) (hn : (serArToAbarNote bincode L sg Codec.bls.toBytes pf n).length < 2 ^ 32)
    (hm : (serBarToAbarNote bincode L sg Codec.bls.toBytes pf pt sc m).length < 2 ^ 32) :
    (∃ s, s ≠ serArToAbarNote bincode L sg Codec.bls.toBytes pf n ∧
      readArToAbarNote bincodeIn R Codec.bls.fromBytes pfR s = .ok (n, []) ∧
      readArToAbarNote bincodeIn R Codec.bls.fromBytes pfR (serArToAbarNote bincode L sg Codec.bls.toBytes pf n) = .ok (n, [])) ∧
    ∃ s, s ≠ serBarToAbarNote bincode L sg Codec.bls.toBytes pf pt sc m ∧
      readBarToAbarNote bincodeIn R Codec.bls.fromBytes pfR ptR scR s = .ok (m, []) ∧
      readBarToAbarNote bincodeIn R Codec.bls.fromBytes pfR ptR scR (serBarToAbarNote bincode L sg Codec.bls.toBytes pf pt sc m) =
        .ok (m, []) := by
  have hb : ∀ x, Codec.bls.fromBytes (Codec.bls.toBytes x) = .ok x := fun x => (Codec.C85_scalar_roundtrip Codec.bls_fits x).2
  constructor
  · have hl : (serArToAbarNote bincode L sg respell pf n).length = (serArToAbarNote bincode L sg Codec.bls.toBytes pf n).length := by
      simp only [serArToAbarNote, serArToAbar, List.length_append, respell_bytes]
    refine ⟨serArToAbarNote bincode L sg respell pf n, ?_, ?_, ?_⟩
    · intro e
      simp only [serArToAbarNote, serArToAbar, List.append_assoc] at e
      have e' := List.append_cancel_left (List.append_cancel_left (List.append_cancel_left (List.append_cancel_left e)))
      exact bytes_ne (respell_length _) (respell_ne _) e'
    · have := (C98_ar_to_abar hR (bls := respell) respell_read hp n []).1 (by rw [hl]; exact hn)
      rwa [List.append_nil] at this
    · have := (C98_ar_to_abar hR hb hp n []).1 hn
      rwa [List.append_nil] at this
  · have hl : (serBarToAbarNote bincode L sg respell pf pt sc m).length =
        (serBarToAbarNote bincode L sg Codec.bls.toBytes pf pt sc m).length := by
      simp only [serBarToAbarNote, serBarToAbar, serSchnorr, List.length_append, respell_bytes]
    refine ⟨serBarToAbarNote bincode L sg respell pf pt sc m, ?_, ?_, ?_⟩
    · intro e
      simp only [serBarToAbarNote, serBarToAbar, List.append_assoc] at e
      have e' := List.append_cancel_left (List.append_cancel_left (List.append_cancel_left (List.append_cancel_left e)))
      exact bytes_ne (respell_length _) (respell_ne _) e'
    · have := (C98_bar_to_abar hR (bls := respell) respell_read hp ht hs m []).1 (by rw [hl]; exact hm)
      rwa [List.append_nil] at this
    · have := (C98_bar_to_abar hR hb hp ht hs m []).1 hm
      rwa [List.append_nil] at this

end

theorem decimal_length_lt (a : UInt64) : (decimal a.toNat).length < 100 := by
  have ha := a.toNat_lt
  unfold decimal
  split_ifs with h
  · simp
  · rw [List.length_map, List.length_reverse]
    have := (Nat.digits_length_le_iff (b := 10) (k := 20) (by norm_num) a.toNat).mpr (by omega)
    omega

theorem parseU64_plus (a : UInt64) : parseU64 (43 :: decimal a.toNat) = some a := by
  have h := parseU64_decimal a
  have hh : (decimal a.toNat).head? ≠ some 43 := by
    unfold decimal
    split_ifs with h
    · simp
    · rw [List.head?_map]
      intro e
      obtain ⟨d, hd, e⟩ := Option.map_eq_some_iff.mp e
      have := Nat.digits_lt_base (b := 10) (by norm_num) (List.mem_reverse.mp (List.mem_of_mem_head? hd))
      exact ofNat_ne (m := 48 + d) (n := 43) (by omega) (by omega) (by omega) e
  unfold parseU64 at h ⊢
  rw [if_neg hh] at h
  have e : (43 :: decimal a.toNat).head? = some 43 := rfl
  rw [if_pos e]
  exact h

/-- C115 is violated: A public amount is a text, and the text may start with a plus: every public amount is read from two byte strings. -/
theorem C115_public_amount_violated {S : Types} (L : Leaves S) (R : Parse S) (a : UInt64) (r : Bytes) :
    readAmount bincodeIn R (bincode.variant true 1 nonConfName ++ (bincode.str (43 :: decimal a.toNat) ++ r)) = .ok (.plain a, r) ∧
      readAmount bincodeIn R (serAmount bincode L (.plain a) ++ r) = .ok (.plain a, r) := by
  have hl := decimal_length_lt a
  constructor
  · simp only [readAmount]
    rw [bind_of (reads_nonConf bincode_paired _), if_neg (by norm_num),
      bind_of (bincode_paired.str _ _ (by simp only [bincode, List.length_append, leBytes_length, List.length_cons]; omega)),
      bind_of (lift_ok (by rw [parseU64_plus]; rfl) _), pure_of]
  · simp only [serAmount, readAmount, List.append_assoc]
    rw [bind_of (reads_nonConf bincode_paired _), if_neg (by norm_num),
      bind_of (bincode_paired.str _ _ (by simp only [bincode, List.length_append, leBytes_length]; omega)),
      bind_of (lift_ok (by rw [parseU64_decimal]; rfl) _), pure_of]

end Verif.Serde
