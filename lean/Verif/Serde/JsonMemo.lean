import Verif.Serde.Json

/-!
Owner memos in JSON: the hand-written reader of `OwnerMemo` on JSON trees, with the old and the new names of the fields.
-/

namespace Verif.Serde

open Verif.Xfr (Wire KeyType HybridCt OwnerMemo Field)

/-- the bytes of a text in ASCII -/
syntax (name := asciiLit) "ascii! " str : term

macro_rules
  | `(ascii! $s:str) => do
    let lits := s.getString.toUTF8.toList.map (fun b => Lean.Syntax.mkNumLit (toString b.toNat))
    let arr := lits.toArray
    `(([$arr,*] : Verif.Bytes))

/-- a name is not among the names of the later fields -/
macro "fresh" : tactic => `(tactic| (simp only [Rec.cons, Rec.nil]; decide))

/-- `ZeiHybridCiphertext`, crypto/src/basic/hybrid_encryption.rs:118-123; the key must have 32 bytes (28-39) -/
def jHybrid : Codec HybridCt :=
  (Rec.cons (ascii! "ciphertext") jB64 (Rec.cons (ascii! "ephemeral_public_key") jB64 Rec.nil)).codec.via
    (fun c => (c.ctext, c.epk.1, ())) (fun t => if h : t.2.1.length = 32 then .ok ⟨t.1, ⟨t.2.1, h⟩⟩ else .err)

theorem good_hybrid : jHybrid.Good 1 :=
  good_via (good_rec (rec_good_cons good_b64 (rec_good_cons good_b64 rec_good_nil (by fresh)) (by fresh)))
    (fun c => by simp only [dif_pos c.epk.2])

/-- `KeyType`, api/src/xfr/sig.rs:36-45 -/
def jsonKeyType : Json → Option KeyType
  | .str s => keyTypeOf s
  | .obj [(k, .null)] => keyTypeOf k
  | _ => none

/-- a result without the kind of failure -/
def Res.toOption {α : Type} : Res α → Option α
  | .ok a => some a
  | _ => none

theorem toOption_eq {α : Type} {r : Res α} {a : α} : Res.toOption r = some a ↔ r = .ok a := by
  cases r <;> simp [Res.toOption]

/-- how the reader of owner memos reads JSON values; a point is text in base64 (algebra/src/serialization.rs:209-214) -/
def jsonWire : Wire Json where
  keyType := jsonKeyType
  str j := match j with
    | .str s => b64dec s
    | _ => none
  hybrid j := Res.toOption (jHybrid.de j)
  bytes j := Res.toOption ((jVec jU8).de j)
  isUnit j := match j with
    | .null => true
    | _ => false

/-- the names that `Field` knows (structs.rs:754-766), as texts -/
def memoName (b : Bytes) : String :=
  if b = ascii! "key_type" then "key_type"
  else if b = ascii! "blind_share" then "blind_share"
  else if b = ascii! "blind_share_bytes" then "blind_share_bytes"
  else if b = ascii! "lock" then "lock"
  else if b = ascii! "lock_bytes" then "lock_bytes"
  else ""

/-- from the memo that was read -/
def toWMemo (m : OwnerMemo) : WMemo := ⟨keyTypeNo m.keyType, m.blindShare, m.lock⟩

/-- `deserialize_struct` with `OwnerMemoVisitor`, structs.rs:773-886: an object goes to `visit_map`, an array to `visit_seq`, after which
`serde_json` refuses further elements -/
def deMemo (j : Json) : Res WMemo :=
  match j with
  | .obj l => do
    let m ← jsonWire.visitMap (l.map (fun x => (memoName x.1, x.2)))
    .ok (toWMemo m)
  | .arr l => do
    let m ← jsonWire.visitSeq l
    if l.length = 3 then .ok (toWMemo m) else .err
  | _ => .err

/-- which of the names a memo is written with: with or without the type of the key, and for the point and the ciphertext the old or the
new name -/
structure Layout where
  typed : Bool
  oldShare : Bool
  oldLock : Bool

/-- The layout can express the memo: without a type it is one of Ed25519; the old name of the point holds 32 bytes; the old name of the
ciphertext holds a structured ciphertext. -/
structure Layout.Fits (y : Layout) (m : WMemo) : Prop where
  typed : y.typed = false → m.keyType = 0
  share : y.oldShare = true → m.blindShare.length = 32
  lock : y.oldLock = true → 32 ≤ m.lock.length

/-- the members of a memo in a layout -/
def Layout.members (y : Layout) (m : WMemo) : List (Bytes × Json) :=
  ((if y.typed then [(ascii! "key_type", .str (keyTypeName m.keyType))] else []) ++
    ((if y.oldShare then [(ascii! "blind_share", jB64.ser m.blindShare)]
      else [(ascii! "blind_share_bytes", (jVec jU8).ser m.blindShare)]) ++
    (if y.oldLock then [(ascii! "lock", .obj [(ascii! "ciphertext", jB64.ser (m.lock.drop 32)),
        (ascii! "ephemeral_public_key", jB64.ser (m.lock.take 32))])]
      else [(ascii! "lock_bytes", (jVec jU8).ser m.lock)])))

/-- a memo in a layout -/
def Layout.json (y : Layout) (m : WMemo) : Json := .obj (y.members m)

/-- what `Serialize` of `OwnerMemo` writes, structs.rs:386-394 -/
def newLayout : Layout := ⟨true, false, false⟩

theorem newLayout_fits (m : WMemo) : newLayout.Fits m := ⟨(by intro h; cases h), (by intro h; cases h), (by intro h; cases h)⟩

/-- `OwnerMemo`; `lay` chooses the layout in which a memo is written -/
def jMemo (lay : WMemo → Layout) : Codec WMemo where
  ser m := (lay m).json m
  de := deMemo
  missing := .err

theorem keyType_json (i : Fin 3) : ∃ k, jsonWire.keyType (.str (keyTypeName i)) = some k ∧ keyTypeNo k = i := by
  fin_cases i
  · exact ⟨.ed25519, rfl, rfl⟩
  · exact ⟨.secp256k1, rfl, rfl⟩
  · exact ⟨.address, rfl, rfl⟩

theorem bytes_json (b : Bytes) : jsonWire.bytes ((jVec jU8).ser b) = some b := toOption_eq.mpr ((good_vec good_u8).back b)

theorem str_json (b : Bytes) : jsonWire.str (jB64.ser b) = some b := b64dec_enc b

theorem hybrid_json (l : Bytes) (h : 32 ≤ l.length) :
    ∃ c : HybridCt, jsonWire.hybrid (.obj [(ascii! "ciphertext", jB64.ser (l.drop 32)), (ascii! "ephemeral_public_key", jB64.ser (l.take 32))]) =
      some c ∧ c.toBytes = l := by
  refine ⟨⟨l.drop 32, ⟨l.take 32, by simp [h]⟩⟩, toOption_eq.mpr (good_hybrid.back ⟨l.drop 32, ⟨l.take 32, by simp [h]⟩⟩), ?_⟩
  exact List.take_append_drop 32 l

/-- a memo in any layout that can express it is read as the memo -/
theorem deMemo_layout (y : Layout) (m : WMemo) (h : y.Fits m) : deMemo (y.json m) = .ok m := by
  obtain ⟨kt, share, lock⟩ := m
  obtain ⟨k, hk, hn⟩ := keyType_json kt
  have hshare : y.oldShare = true → jsonWire.edwards (jB64.ser share) = .ok share := fun e => by
    simp only [Wire.edwards, str_json, Res.ofOption_some, Res.bind_ok, if_pos (h.share e)]
  have hlock : y.oldLock = true → jsonWire.lockOld (.obj [(ascii! "ciphertext", jB64.ser (lock.drop 32)),
      (ascii! "ephemeral_public_key", jB64.ser (lock.take 32))]) = .ok lock := fun e => by
    obtain ⟨c, hc, hb⟩ := hybrid_json lock (h.lock e)
    simp only [Wire.lockOld, hc, Res.ofOption_some, Res.bind_ok, hb, Res.pure_eq]
  have hkt : y.typed = false → k = .ed25519 := fun e => by
    have := h.typed e
    simp only at this
    subst this
    cases k <;> simp_all [keyTypeNo]
  have key : jsonWire.visitMap ((y.members ⟨kt, share, lock⟩).map (fun x => (memoName x.1, x.2))) =
      .ok ⟨k, share, lock⟩ := by
    rw [Verif.Xfr.C66_decodes_iff]
    obtain ⟨b1, b2, b3⟩ := y
    cases b1 <;> cases b2 <;> cases b3 <;>
      simp only [Layout.members, Bool.false_eq_true, if_true, if_false, List.nil_append, List.cons_append, List.map_cons, List.map_nil] at * <;>
      refine ⟨by simp [memoName], ?_, ?_, ?_⟩ <;>
      simp_all [Wire.sharesIn, Wire.locksIn, Wire.typesIn, memoName, bytes_json]
  change (jsonWire.visitMap ((y.members ⟨kt, share, lock⟩).map (fun x => (memoName x.1, x.2))) >>= fun m =>
    (.ok (toWMemo m) : Res WMemo)) = _
  rw [key, Res.bind_ok, toWMemo, hn]

/-- numbers have no order of members -/
theorem bytes_same {j j' : Json} {b : Bytes} (h : jsonWire.bytes j = some b) (hj : Reord j j') : j' = j := by
  replace h := toOption_eq.mp h
  cases j with
  | arr l =>
    obtain ⟨m, rfl, hm⟩ := reord_arr hj
    change deList jU8.de l = .ok b at h
    clear hj
    congr 1
    induction hm generalizing b with
    | nil => rfl
    | @cons x y l m h1 _ ih =>
      simp only [deList, Res.bind_eq_ok] at h
      obtain ⟨a, ha, c, hc, -⟩ := h
      rw [ih hc]
      congr 1
      simp only [jU8, Codec.via, jNat, Res.bind_eq_ok] at ha
      obtain ⟨n, hn, -⟩ := ha
      cases x with
      | num n => exact reord_num h1
      | _ => cases hn
  | _ => simp [jVec] at h

theorem keyType_perm {j j' : Json} {k : KeyType} (h : jsonWire.keyType j = some k) (hj : Reord j j') : jsonWire.keyType j' = some k := by
  change jsonKeyType j = some k at h
  change jsonKeyType j' = some k
  match j, h, hj with
  | .str s, h, hj => rw [reord_str hj]; exact h
  | .obj [(n, .null)], h, hj =>
    obtain ⟨v', rfl, hv⟩ := reord_one hj
    rw [reord_null hv]
    exact h
  | .null, h, _ => simp [jsonKeyType] at h
  | .bool _, h, _ => simp [jsonKeyType] at h
  | .num _, h, _ => simp [jsonKeyType] at h
  | .arr _, h, _ => simp [jsonKeyType] at h
  | .obj [], h, _ => simp [jsonKeyType] at h
  | .obj [(_, .bool _)], h, _ => simp [jsonKeyType] at h
  | .obj [(_, .num _)], h, _ => simp [jsonKeyType] at h
  | .obj [(_, .str _)], h, _ => simp [jsonKeyType] at h
  | .obj [(_, .arr _)], h, _ => simp [jsonKeyType] at h
  | .obj [(_, .obj _)], h, _ => simp [jsonKeyType] at h
  | .obj (_ :: _ :: _), h, _ => simp [jsonKeyType] at h

theorem str_perm {j j' : Json} {b : Bytes} (h : jsonWire.str j = some b) (hj : Reord j j') : jsonWire.str j' = some b := by
  cases j with
  | str s => rw [reord_str hj]; exact h
  | _ => simp [jsonWire] at h

theorem hybrid_perm {j j' : Json} {c : HybridCt} (h : jsonWire.hybrid j = some c) (hj : Reord j j') : jsonWire.hybrid j' = some c :=
  toOption_eq.mpr (good_hybrid.perm _ _ _ hj (toOption_eq.mp h))

theorem bytes_perm {j j' : Json} {b : Bytes} (h : jsonWire.bytes j = some b) (hj : Reord j j') : jsonWire.bytes j' = some b := by
  rw [bytes_same h hj]
  exact h

theorem ofOption_ok {α : Type} {o : Option α} {a : α} : Res.ofOption o = .ok a ↔ o = some a := by
  cases o <;> simp

theorem mapStep_perm (st st' : Verif.Xfr.MemoSlots) (n : String) (j j' : Json) (hj : Reord j j') (h : jsonWire.mapStep st (n, j) = .ok st') :
    jsonWire.mapStep st (n, j') = .ok st' := by
  unfold Wire.mapStep at h ⊢
  cases hf : Field.ofName n with
  | none => rw [hf] at h; cases h
  | some f =>
    rw [hf] at h
    cases f with
    | keyType =>
      simp only at h ⊢
      split_ifs at h ⊢
      obtain ⟨k, hk, e⟩ := Res.bind_eq_ok.mp h
      exact Res.bind_eq_ok.mpr ⟨k, ofOption_ok.mpr (keyType_perm (ofOption_ok.mp hk) hj), e⟩
    | blindShare =>
      simp only at h ⊢
      split_ifs at h ⊢
      obtain ⟨b, hb, e⟩ := Res.bind_eq_ok.mp h
      refine Res.bind_eq_ok.mpr ⟨b, ?_, e⟩
      obtain ⟨x, hx, e'⟩ := Res.bind_eq_ok.mp hb
      exact Res.bind_eq_ok.mpr ⟨x, ofOption_ok.mpr (str_perm (ofOption_ok.mp hx) hj), e'⟩
    | blindShareBytes =>
      simp only at h ⊢
      split_ifs at h ⊢
      obtain ⟨b, hb, e⟩ := Res.bind_eq_ok.mp h
      exact Res.bind_eq_ok.mpr ⟨b, ofOption_ok.mpr (bytes_perm (ofOption_ok.mp hb) hj), e⟩
    | lock =>
      simp only at h ⊢
      split_ifs at h ⊢
      obtain ⟨b, hb, e⟩ := Res.bind_eq_ok.mp h
      refine Res.bind_eq_ok.mpr ⟨b, ?_, e⟩
      obtain ⟨x, hx, e'⟩ := Res.bind_eq_ok.mp hb
      exact Res.bind_eq_ok.mpr ⟨x, ofOption_ok.mpr (hybrid_perm (ofOption_ok.mp hx) hj), e'⟩
    | lockBytes =>
      simp only at h ⊢
      split_ifs at h ⊢
      obtain ⟨b, hb, e⟩ := Res.bind_eq_ok.mp h
      exact Res.bind_eq_ok.mpr ⟨b, ofOption_ok.mpr (bytes_perm (ofOption_ok.mp hb) hj), e⟩

/-- the type of a key as serde reads a unit variant: its name, or an object with the name and `null` -/
inductive TypeForm (i : Fin 3) : Json → Prop
  | name : TypeForm i (.str (keyTypeName i))
  | object : TypeForm i (.obj [(keyTypeName i, .null)])

/-- C106: a memo is also read when the type of its key is written as an object, and when its three members stand in an array, which must not have
further elements. -/
theorem C106_memo_forms (m : WMemo) (j : Json) (hj : TypeForm m.keyType j) :
    deMemo (.obj [(ascii! "key_type", j), (ascii! "blind_share_bytes", (jVec jU8).ser m.blindShare), (ascii! "lock_bytes", (jVec jU8).ser m.lock)]) =
      .ok m ∧
    deMemo (.arr [j, (jVec jU8).ser m.blindShare, (jVec jU8).ser m.lock]) = .ok m ∧
    ∀ x l, deMemo (.arr (j :: (jVec jU8).ser m.blindShare :: (jVec jU8).ser m.lock :: x :: l)) = .err := by
  obtain ⟨kt, share, lock⟩ := m
  obtain ⟨k, hk, hn⟩ : ∃ k, jsonWire.keyType j = some k ∧ keyTypeNo k = kt := by
    obtain ⟨k, hk, hn⟩ := keyType_json kt
    exact ⟨k, by cases hj <;> exact hk, hn⟩
  have hu : jsonWire.isUnit j = false := by cases hj <;> rfl
  have seq : ∀ l, jsonWire.visitSeq (j :: (jVec jU8).ser share :: (jVec jU8).ser lock :: l) = .ok ⟨k, share, lock⟩ := by
    intro l
    have e1 : jsonWire.seqShare ((jVec jU8).ser share) = .ok share := by
      unfold Wire.seqShare
      rw [show jsonWire.str ((jVec jU8).ser share) = none from rfl]
      exact ofOption_ok.mpr (bytes_json share)
    have e2 : jsonWire.seqLock ((jVec jU8).ser lock) = .ok lock := by
      unfold Wire.seqLock
      have hs : jsonWire.hybrid ((jVec jU8).ser lock) = none := by cases lock <;> rfl
      rw [hs]
      exact ofOption_ok.mpr (bytes_json lock)
    simp only [Wire.visitSeq, List.getElem?_cons_zero, List.getElem?_cons_succ, Res.ofOption_some, Res.bind_ok, Wire.seqKeyType, hu,
      Bool.false_eq_true, if_false, hk, e1, e2, Res.pure_eq]
  refine ⟨?_, ?_, fun x l => ?_⟩
  · have key : jsonWire.visitMap ([(ascii! "key_type", j), (ascii! "blind_share_bytes", (jVec jU8).ser share),
        (ascii! "lock_bytes", (jVec jU8).ser lock)].map (fun x => (memoName x.1, x.2))) = .ok ⟨k, share, lock⟩ := by
      rw [Verif.Xfr.C66_decodes_iff]
      simp only [List.map_cons, List.map_nil]
      refine ⟨by simp [memoName], ?_, ?_, ?_⟩ <;>
        simp_all [Wire.sharesIn, Wire.locksIn, Wire.typesIn, memoName, bytes_json]
    unfold deMemo
    simp only [key, Res.bind_ok, toWMemo, hn]
  · unfold deMemo
    simp only [seq, Res.bind_ok, toWMemo, hn]
    rfl
  · unfold deMemo
    simp only [seq, Res.bind_ok]
    rw [if_neg (by simp)]

theorem visitMap_perm {l m l' : List (Bytes × Json)} (h1 : l.map Prod.fst = m.map Prod.fst)
    (h2 : List.Forall₂ Reord (l.map Prod.snd) (m.map Prod.snd)) (h3 : m.Perm l') (a : OwnerMemo)
    (h : jsonWire.visitMap (l.map (fun x => (memoName x.1, x.2))) = .ok a) :
    jsonWire.visitMap (l'.map (fun x => (memoName x.1, x.2))) = .ok a := by
  refine (Verif.Xfr.C66_order_independent jsonWire _ _ (h3.map (fun x => (memoName x.1, x.2))) a).mp ?_
  unfold Wire.visitMap at h ⊢
  obtain ⟨st, h4, h5⟩ := Res.bind_eq_ok.mp h
  refine Res.bind_eq_ok.mpr ⟨st, ?_, h5⟩
  rw [List.foldlM_map] at h4 ⊢
  exact fold_val (fun st n j j' st' hj h => mapStep_perm st st' (memoName n) j j' hj h) l m h1 h2 _ _ h4

theorem seqKeyType_perm {j j' : Json} {k : KeyType} (hj : Reord j j') (h : jsonWire.seqKeyType j = .ok k) : jsonWire.seqKeyType j' = .ok k := by
  unfold Wire.seqKeyType at h ⊢
  by_cases e : j = .null
  · subst e
    rw [reord_null hj]
    exact h
  · have e' : j' ≠ .null := fun e' => e (by subst e'; exact reord_to_null hj)
    have u : ∀ i : Json, i ≠ .null → jsonWire.isUnit i = false := fun i hi => by
      cases i with
      | null => exact absurd rfl hi
      | _ => rfl
    rw [u j e] at h
    rw [u j' e']
    exact ofOption_ok.mpr (keyType_perm (ofOption_ok.mp h) hj)

theorem seqShare_perm {j j' : Json} {b : Bytes} (hj : Reord j j') (h : jsonWire.seqShare j = .ok b) : jsonWire.seqShare j' = .ok b := by
  unfold Wire.seqShare at h ⊢
  cases hs : jsonWire.str j with
  | some x => rw [hs] at h; rw [str_perm hs hj]; exact h
  | none =>
    rw [hs] at h
    have e := bytes_same (ofOption_ok.mp h) hj
    rw [e, hs]
    exact h

theorem seqLock_perm {j j' : Json} {b : Bytes} (hj : Reord j j') (h : jsonWire.seqLock j = .ok b) : jsonWire.seqLock j' = .ok b := by
  unfold Wire.seqLock at h ⊢
  cases hs : jsonWire.hybrid j with
  | some x => rw [hs] at h; rw [hybrid_perm hs hj]; exact h
  | none =>
    rw [hs] at h
    have e := bytes_same (ofOption_ok.mp h) hj
    rw [e, hs]
    exact h

theorem visitSeq_perm {l m : List Json} (hl : List.Forall₂ Reord l m) (h3 : l.length = 3) (a : OwnerMemo)
    (h : jsonWire.visitSeq l = .ok a) : jsonWire.visitSeq m = .ok a := by
  match l, m, hl, h3, h with
  | [x, y, z], _, .cons (b := x') hx (.cons (b := y') hy (.cons (b := z') hz .nil)), _, h =>
    simp only [Wire.visitSeq, List.getElem?_cons_zero, List.getElem?_cons_succ, Res.ofOption_some, Res.bind_ok, Res.bind_eq_ok] at h ⊢
    obtain ⟨a1, h1, a2, h2, a3, h3, e⟩ := h
    exact ⟨a1, seqKeyType_perm hx h1, a2, seqShare_perm hy h2, a3, seqLock_perm hz h3, e⟩

theorem good_memo {lay : WMemo → Layout} (h : ∀ m, (lay m).Fits m) : (jMemo lay).Good 2 where
  back m := deMemo_layout _ m (h m)
  depth m := by
    have h1 := (good_vec good_u8).depth
    have h2 := good_b64.depth
    have h3 := h1 m.blindShare
    have h4 := h1 m.lock
    have h5 := h2 m.blindShare
    have h6 := h2 (m.lock.drop 32)
    have h7 := h2 (m.lock.take 32)
    simp only [jMemo, Layout.json, Layout.members, Json.depth]
    cases (lay m).typed <;> cases (lay m).oldShare <;> cases (lay m).oldLock <;>
      simp only [Bool.false_eq_true, if_true, if_false, List.nil_append, List.cons_append, membersDepth, Json.depth] <;> omega
  perm j j' a hj ha := by
    change deMemo j = .ok a at ha
    change deMemo j' = .ok a
    cases j with
    | obj l =>
      obtain ⟨m, l', rfl, h1, h2, h3⟩ := reord_obj hj
      obtain ⟨o, h4, h5⟩ := Res.bind_eq_ok.mp ha
      exact Res.bind_eq_ok.mpr ⟨o, visitMap_perm h1 h2 h3 o h4, h5⟩
    | arr l =>
      obtain ⟨m, rfl, hm⟩ := reord_arr hj
      obtain ⟨o, h4, h5⟩ := Res.bind_eq_ok.mp ha
      have h3 : l.length = 3 := by
        by_contra h
        rw [if_neg h] at h5
        cases h5
      refine Res.bind_eq_ok.mpr ⟨o, visitSeq_perm hm h3 o h4, ?_⟩
      rw [if_pos h3] at h5
      rw [if_pos (hm.length_eq ▸ h3)]
      exact h5
    | _ => simp [deMemo] at ha

theorem memo_ne_null (lay : WMemo → Layout) (m : WMemo) : (jMemo lay).ser m ≠ .null := by simp [jMemo, Layout.json]

end Verif.Serde
