import Mathlib.Data.List.Perm.Basic
import Verif.Xfr.Record

/-!
C66: decoding of owner memos in the old and the new field layout.
-/

namespace Verif.Xfr

/-! ### Model -/

/-- How a serde value `V` is read by the types the decoder asks for.  `str` is what `BytesVisitor` returns for a
`CompressedEdwardsY` (algebra/src/serialization.rs:178-246), before `from_slice`. -/
structure Wire (V : Type) where
  keyType : V → Option KeyType
  str : V → Option Bytes
  hybrid : V → Option HybridCt
  bytes : V → Option Bytes
  /-- the value is matched by the unit variant `CompatibleKeyType::Old` -/
  isUnit : V → Bool

/-- models `Field` and its `visit_str`, api/src/xfr/structs.rs:730-768 -/
inductive Field where
  | keyType | blindShare | blindShareBytes | lock | lockBytes

/-- models api/src/xfr/structs.rs:754-766 -/
def Field.ofName (s : String) : Option Field :=
  if s = "key_type" then some .keyType
  else if s = "blind_share" then some .blindShare
  else if s = "blind_share_bytes" then some .blindShareBytes
  else if s = "lock" then some .lock
  else if s = "lock_bytes" then some .lockBytes
  else none

variable {V : Type} (W : Wire V)

/-- `next_value::<CompressedEdwardsY>()` and `tmp.0.to_bytes()`: `from_slice` (algebra/src/serialization.rs:56-60) panics
unless there are 32 bytes -/
def Wire.edwards (v : V) : Res Bytes := do
  let b ← Res.ofOption (W.str v)
  if b.length = 32 then .ok b else .panic

/-- `next_value::<ZeiHybridCiphertext>()` and `zei_to_bytes` -/
def Wire.lockOld (v : V) : Res Bytes := do
  let c ← Res.ofOption (W.hybrid v)
  return c.toBytes

/-- the three local variables of `visit_map` -/
structure MemoSlots where
  keyType : Option KeyType
  share : Option Bytes
  lock : Option Bytes

/-- one round of the loop, api/src/xfr/structs.rs:823-861 -/
def Wire.mapStep (st : MemoSlots) (f : String × V) : Res MemoSlots :=
  match Field.ofName f.1 with
  | none => .err
  | some .keyType =>
    if st.keyType.isSome then .err else do
      let k ← Res.ofOption (W.keyType f.2)
      return { st with keyType := some k }
  | some .blindShare =>
    if st.share.isSome then .err else do
      let b ← W.edwards f.2
      return { st with share := some b }
  | some .blindShareBytes =>
    if st.share.isSome then .err else do
      let b ← Res.ofOption (W.bytes f.2)
      return { st with share := some b }
  | some .lock =>
    if st.lock.isSome then .err else do
      let b ← W.lockOld f.2
      return { st with lock := some b }
  | some .lockBytes =>
    if st.lock.isSome then .err else do
      let b ← Res.ofOption (W.bytes f.2)
      return { st with lock := some b }

/-- models `visit_map`, api/src/xfr/structs.rs:815-873 -/
def Wire.visitMap (fields : List (String × V)) : Res OwnerMemo := do
  let st ← fields.foldlM W.mapStep ⟨none, none, none⟩
  let kt := st.keyType.getD .ed25519
  let share ← Res.ofOption st.share
  let lock ← Res.ofOption st.lock
  return ⟨kt, share, lock⟩

/-- `CompatibleKeyType`, api/src/xfr/structs.rs:702-707 and 787-793; an untagged enum takes the first variant that
matches -/
def Wire.seqKeyType (v : V) : Res KeyType := if W.isUnit v then .ok .ed25519 else Res.ofOption (W.keyType v)

/-- `CompatibleBlindShare`, api/src/xfr/structs.rs:709-714 and 794-800 -/
def Wire.seqShare (v : V) : Res Bytes :=
  match W.str v with
  | some b => if b.length = 32 then .ok b else .panic
  | none => Res.ofOption (W.bytes v)

/-- `CompatibleLock`, api/src/xfr/structs.rs:716-721 and 801-807 -/
def Wire.seqLock (v : V) : Res Bytes :=
  match W.hybrid v with
  | some c => .ok c.toBytes
  | none => Res.ofOption (W.bytes v)

/-- models `visit_seq`, api/src/xfr/structs.rs:783-813 -/
def Wire.visitSeq (vals : List V) : Res OwnerMemo := do
  let v0 ← Res.ofOption vals[0]?
  let kt ← W.seqKeyType v0
  let v1 ← Res.ofOption vals[1]?
  let share ← W.seqShare v1
  let v2 ← Res.ofOption vals[2]?
  let lock ← W.seqLock v2
  return ⟨kt, share, lock⟩

/-! ### Specification -/

/-- every value given for the key type -/
def Wire.typesIn (fields : List (String × V)) : List (Res KeyType) :=
  fields.filterMap (fun f => if f.1 = "key_type" then some (Res.ofOption (W.keyType f.2)) else none)

/-- every value given for the blind share, under either name -/
def Wire.sharesIn (fields : List (String × V)) : List (Res Bytes) :=
  fields.filterMap (fun f => if f.1 = "blind_share" then some (W.edwards f.2)
    else if f.1 = "blind_share_bytes" then some (Res.ofOption (W.bytes f.2)) else none)

/-- every value given for the lock, under either name -/
def Wire.locksIn (fields : List (String × V)) : List (Res Bytes) :=
  fields.filterMap (fun f => if f.1 = "lock" then some (W.lockOld f.2)
    else if f.1 = "lock_bytes" then some (Res.ofOption (W.bytes f.2)) else none)

/-- The fields describe the memo: only known names; exactly one blind share and one lock, under whichever name; at most
one key type, Ed25519 when absent. -/
structure Wire.Describes (fields : List (String × V)) (m : OwnerMemo) : Prop where
  known : ∀ f ∈ fields, f.1 ∈ ["key_type", "blind_share", "blind_share_bytes", "lock", "lock_bytes"]
  share : W.sharesIn fields = [.ok m.blindShare]
  lock : W.locksIn fields = [.ok m.lock]
  keyType : W.typesIn fields = [] ∧ m.keyType = .ed25519 ∨ W.typesIn fields = [.ok m.keyType]

/-! ### Lemmas -/

/-- how a variable evolves when the values `l` are assigned, a second assignment being an error -/
def slot {α : Type} (a b : Option α) (l : List (Res α)) : Prop :=
  match a with
  | some x => l = [] ∧ b = some x
  | none => (l = [] ∧ b = none) ∨ ∃ x, l = [.ok x] ∧ b = some x

theorem slot_nil {α : Type} (a b : Option α) : slot a b [] ↔ b = a := by
  cases a <;> simp [slot]

theorem slot_cons {α : Type} (a b : Option α) (r : Res α) (l : List (Res α)) :
    slot a b (r :: l) ↔ a = none ∧ ∃ x, r = .ok x ∧ slot (some x) b l := by
  cases a with
  | some x => simp [slot]
  | none =>
    simp only [slot, List.cons_ne_nil, false_and, false_or, List.cons.injEq, true_and]
    constructor
    · rintro ⟨x, ⟨rfl, rfl⟩, rfl⟩; exact ⟨x, rfl, rfl, rfl⟩
    · rintro ⟨x, rfl, rfl, rfl⟩; exact ⟨x, ⟨rfl, rfl⟩, rfl⟩

theorem isSome_guard {α β : Type} (a : Option α) (r : Res β) (b : β) :
    (if a.isSome then (.err : Res β) else r) = .ok b ↔ a = none ∧ r = .ok b := by
  cases a <;> simp

theorem fold_spec (fields : List (String × V)) (st st' : MemoSlots) :
    fields.foldlM W.mapStep st = .ok st' ↔
      (∀ f ∈ fields, f.1 ∈ ["key_type", "blind_share", "blind_share_bytes", "lock", "lock_bytes"]) ∧
      slot st.keyType st'.keyType (W.typesIn fields) ∧ slot st.share st'.share (W.sharesIn fields) ∧
      slot st.lock st'.lock (W.locksIn fields) := by
  induction fields generalizing st with
  | nil =>
    obtain ⟨a, b, c⟩ := st
    obtain ⟨a', b', c'⟩ := st'
    simp only [List.foldlM_nil, Res.pure_eq, Res.ok.injEq, MemoSlots.mk.injEq, Wire.typesIn, Wire.sharesIn, Wire.locksIn,
      List.filterMap_nil, slot_nil, List.not_mem_nil, false_imp_iff, implies_true, true_and]
    constructor
    · rintro ⟨rfl, rfl, rfl⟩; exact ⟨rfl, rfl, rfl⟩
    · rintro ⟨rfl, rfl, rfl⟩; exact ⟨rfl, rfl, rfl⟩
  | cons f fs ih =>
    obtain ⟨name, v⟩ := f
    rw [List.foldlM_cons, Res.bind_eq_ok]
    simp only [ih]
    obtain ⟨a, b, c⟩ := st
    by_cases h1 : name = "key_type"
    · subst h1
      simp only [Wire.mapStep, Field.ofName, if_true, isSome_guard, Res.bind_eq_ok, Res.pure_eq, Res.ok.injEq, Wire.typesIn,
        Wire.sharesIn, Wire.locksIn, List.filterMap_cons, slot_cons, List.forall_mem_cons]
      constructor
      · rintro ⟨st1, ⟨ha, x, hx, rfl⟩, hk, h1, h2, h3⟩
        exact ⟨⟨by simp, hk⟩, ⟨ha, x, hx, h1⟩, by simpa using h2, by simpa using h3⟩
      · rintro ⟨⟨-, hk⟩, ⟨ha, x, hx, h1⟩, h2, h3⟩
        exact ⟨_, ⟨ha, x, hx, rfl⟩, hk, h1, by simpa using h2, by simpa using h3⟩
    by_cases h2 : name = "blind_share"
    · subst h2
      simp only [Wire.mapStep, Field.ofName, h1, if_false, if_true, isSome_guard, Res.bind_eq_ok, Res.pure_eq, Res.ok.injEq,
        Wire.typesIn, Wire.sharesIn, Wire.locksIn, List.filterMap_cons, slot_cons, List.forall_mem_cons]
      constructor
      · rintro ⟨st1, ⟨ha, x, hx, rfl⟩, hk, h1, h2, h3⟩
        exact ⟨⟨by simp, hk⟩, by simpa using h1, ⟨ha, x, hx, h2⟩, by simpa using h3⟩
      · rintro ⟨⟨-, hk⟩, h1, ⟨ha, x, hx, h2⟩, h3⟩
        exact ⟨_, ⟨ha, x, hx, rfl⟩, hk, by simpa using h1, h2, by simpa using h3⟩
    by_cases h3 : name = "blind_share_bytes"
    · subst h3
      simp only [Wire.mapStep, Field.ofName, h1, h2, if_false, if_true, isSome_guard, Res.bind_eq_ok, Res.pure_eq,
        Res.ok.injEq, Wire.typesIn, Wire.sharesIn, Wire.locksIn, List.filterMap_cons, slot_cons, List.forall_mem_cons]
      constructor
      · rintro ⟨st1, ⟨ha, x, hx, rfl⟩, hk, h1, h2, h3⟩
        exact ⟨⟨by simp, hk⟩, by simpa using h1, ⟨ha, x, hx, h2⟩, by simpa using h3⟩
      · rintro ⟨⟨-, hk⟩, h1, ⟨ha, x, hx, h2⟩, h3⟩
        exact ⟨_, ⟨ha, x, hx, rfl⟩, hk, by simpa using h1, h2, by simpa using h3⟩
    by_cases h4 : name = "lock"
    · subst h4
      simp only [Wire.mapStep, Field.ofName, h1, h2, h3, if_false, if_true, isSome_guard, Res.bind_eq_ok, Res.pure_eq,
        Res.ok.injEq, Wire.typesIn, Wire.sharesIn, Wire.locksIn, List.filterMap_cons, slot_cons, List.forall_mem_cons]
      constructor
      · rintro ⟨st1, ⟨ha, x, hx, rfl⟩, hk, h1, h2, h3⟩
        exact ⟨⟨by simp, hk⟩, by simpa using h1, by simpa using h2, ⟨ha, x, hx, h3⟩⟩
      · rintro ⟨⟨-, hk⟩, h1, h2, ⟨ha, x, hx, h3⟩⟩
        exact ⟨_, ⟨ha, x, hx, rfl⟩, hk, by simpa using h1, by simpa using h2, h3⟩
    by_cases h5 : name = "lock_bytes"
    · subst h5
      simp only [Wire.mapStep, Field.ofName, h1, h2, h3, h4, if_false, if_true, isSome_guard, Res.bind_eq_ok, Res.pure_eq,
        Res.ok.injEq, Wire.typesIn, Wire.sharesIn, Wire.locksIn, List.filterMap_cons, slot_cons, List.forall_mem_cons]
      constructor
      · rintro ⟨st1, ⟨ha, x, hx, rfl⟩, hk, h1, h2, h3⟩
        exact ⟨⟨by simp, hk⟩, by simpa using h1, by simpa using h2, ⟨ha, x, hx, h3⟩⟩
      · rintro ⟨⟨-, hk⟩, h1, h2, ⟨ha, x, hx, h3⟩⟩
        exact ⟨_, ⟨ha, x, hx, rfl⟩, hk, by simpa using h1, by simpa using h2, h3⟩
    · constructor
      · rintro ⟨st1, hs, -⟩
        simp [Wire.mapStep, Field.ofName, h1, h2, h3, h4, h5] at hs
      · rintro ⟨hk, -⟩
        have := hk (name, v) List.mem_cons_self
        simp [h1, h2, h3, h4, h5] at this

/-! ### Properties -/

/-- C66: the decoder returns a memo exactly when the fields describe it: old and new names, no duplicate across them, no
unknown name, both mandatory fields present, key type Ed25519 when absent. -/
theorem C66_decodes_iff (fields : List (String × V)) (m : OwnerMemo) :
    W.visitMap fields = .ok m ↔ W.Describes fields m := by
  have key : W.visitMap fields = .ok m ↔ ∃ st, fields.foldlM W.mapStep ⟨none, none, none⟩ = .ok st ∧
      st.keyType.getD .ed25519 = m.keyType ∧ st.share = some m.blindShare ∧ st.lock = some m.lock := by
    obtain ⟨k, s, l⟩ := m
    unfold Wire.visitMap
    simp only [Res.bind_eq_ok, Res.pure_eq, Res.ok.injEq, OwnerMemo.mk.injEq]
    constructor
    · rintro ⟨st, h, x, hx, y, hy, rfl, rfl, rfl⟩
      refine ⟨st, h, rfl, ?_, ?_⟩
      · cases hs : st.share <;> rw [hs] at hx <;> simp at hx ⊢; exact hx
      · cases hs : st.lock <;> rw [hs] at hy <;> simp at hy ⊢; exact hy
    · rintro ⟨st, h, hk, hs, hl⟩
      exact ⟨st, h, s, by rw [hs]; rfl, l, by rw [hl]; rfl, hk, rfl, rfl⟩
  rw [key]
  constructor
  · rintro ⟨st, h, hk, hs, hl⟩
    obtain ⟨h0, h1, h2, h3⟩ := (fold_spec W fields _ _).mp h
    refine ⟨h0, ?_, ?_, ?_⟩
    · rcases h2 with ⟨-, e⟩ | ⟨x, e, e'⟩
      · rw [hs] at e; exact absurd e (by simp)
      · rw [hs] at e'; injection e' with e'; rw [e, e']
    · rcases h3 with ⟨-, e⟩ | ⟨x, e, e'⟩
      · rw [hl] at e; exact absurd e (by simp)
      · rw [hl] at e'; injection e' with e'; rw [e, e']
    · rcases h1 with ⟨e, e'⟩ | ⟨x, e, e'⟩
      · rw [e'] at hk; exact Or.inl ⟨e, hk.symm⟩
      · rw [e'] at hk; exact Or.inr (by rw [e, ← hk]; rfl)
  · rintro ⟨h0, h2, h3, h1⟩
    rcases h1 with ⟨e, hk⟩ | e
    · exact ⟨⟨none, some m.blindShare, some m.lock⟩, (fold_spec W fields _ _).mpr
        ⟨h0, Or.inl ⟨e, rfl⟩, Or.inr ⟨_, h2, rfl⟩, Or.inr ⟨_, h3, rfl⟩⟩, hk.symm, rfl, rfl⟩
    · exact ⟨⟨some m.keyType, some m.blindShare, some m.lock⟩, (fold_spec W fields _ _).mpr
        ⟨h0, Or.inr ⟨_, e, rfl⟩, Or.inr ⟨_, h2, rfl⟩, Or.inr ⟨_, h3, rfl⟩⟩, rfl, rfl, rfl⟩

/-- C66: the order of the fields does not matter. -/
theorem C66_order_independent (fields fields' : List (String × V)) (hp : fields.Perm fields') (m : OwnerMemo) :
    W.visitMap fields = .ok m ↔ W.visitMap fields' = .ok m := by
  suffices H : ∀ l l' : List (String × V), l.Perm l' → W.Describes l m → W.Describes l' m by
    rw [C66_decodes_iff, C66_decodes_iff]
    exact ⟨H _ _ hp, H _ _ hp.symm⟩
  rintro l l' hp ⟨h0, h1, h2, h3⟩
  refine ⟨fun f hf => h0 f (hp.mem_iff.mpr hf), ?_, ?_, ?_⟩
  · have := hp.filterMap (fun f => if f.1 = "blind_share" then some (W.edwards f.2)
      else if f.1 = "blind_share_bytes" then some (Res.ofOption (W.bytes f.2)) else none)
    unfold Wire.sharesIn at *
    rw [h1] at this
    exact List.singleton_perm.mp this |>.symm ▸ rfl
  · have := hp.filterMap (fun f => if f.1 = "lock" then some (W.lockOld f.2)
      else if f.1 = "lock_bytes" then some (Res.ofOption (W.bytes f.2)) else none)
    unfold Wire.locksIn at *
    rw [h2] at this
    exact List.singleton_perm.mp this |>.symm ▸ rfl
  · have := hp.filterMap (fun f => if f.1 = "key_type" then some (Res.ofOption (W.keyType f.2)) else none)
    unfold Wire.typesIn at *
    rcases h3 with ⟨h3, hk⟩ | h3
    · rw [h3] at this
      exact Or.inl ⟨List.nil_perm.mp this, hk⟩
    · rw [h3] at this
      exact Or.inr (List.singleton_perm.mp this |>.symm ▸ rfl)

/-- C66: repeated, missing or unknown fields never decode, in any position. -/
theorem C66_rejects (fields : List (String × V)) (m : OwnerMemo) (h : W.visitMap fields = .ok m) :
    ((fields.map (·.1)).countP (fun n => n = "blind_share" ∨ n = "blind_share_bytes") = 1) ∧
    ((fields.map (·.1)).countP (fun n => n = "lock" ∨ n = "lock_bytes") = 1) ∧
    ((fields.map (·.1)).countP (fun n => n = "key_type") ≤ 1) ∧
    ((∀ n ∈ fields.map (·.1), n ≠ "key_type") → m.keyType = .ed25519) := by
  obtain ⟨-, h1, h2, h3⟩ := (C66_decodes_iff W fields m).mp h
  have c1 : ∀ l : List (String × V), (l.map (·.1)).countP (fun n => n = "blind_share" ∨ n = "blind_share_bytes") =
      (W.sharesIn l).length := by
    intro l
    induction l with
    | nil => rfl
    | cons f l ih =>
      simp only [Wire.sharesIn, List.map_cons, List.countP_cons, List.filterMap_cons] at ih ⊢
      by_cases e1 : f.1 = "blind_share"
      · rw [ih]; simp [e1]
      · by_cases e2 : f.1 = "blind_share_bytes" <;> rw [ih] <;> simp [e1, e2]
  have c2 : ∀ l : List (String × V), (l.map (·.1)).countP (fun n => n = "lock" ∨ n = "lock_bytes") =
      (W.locksIn l).length := by
    intro l
    induction l with
    | nil => rfl
    | cons f l ih =>
      simp only [Wire.locksIn, List.map_cons, List.countP_cons, List.filterMap_cons] at ih ⊢
      by_cases e1 : f.1 = "lock"
      · rw [ih]; simp [e1]
      · by_cases e2 : f.1 = "lock_bytes" <;> rw [ih] <;> simp [e1, e2]
  have c3 : ∀ l : List (String × V), (l.map (·.1)).countP (fun n => n = "key_type") = (W.typesIn l).length := by
    intro l
    induction l with
    | nil => rfl
    | cons f l ih =>
      simp only [Wire.typesIn, List.map_cons, List.countP_cons, List.filterMap_cons] at ih ⊢
      by_cases e1 : f.1 = "key_type" <;> rw [ih] <;> simp [e1]
  refine ⟨by rw [c1, h1]; rfl, by rw [c2, h2]; rfl, ?_, ?_⟩
  · rw [c3]
    rcases h3 with ⟨e, -⟩ | e <;> rw [e] <;> simp
  · intro hn
    rcases h3 with ⟨-, e⟩ | e
    · exact e
    · exfalso
      have := c3 fields
      rw [e, List.countP_eq_zero.mpr (by simpa using hn)] at this
      exact absurd this (by simp)

/-- C66: a memo written by the derived serializer (api/src/xfr/structs.rs:386-394) is read back, when the serde format
reads back key types and byte vectors. -/
theorem C66_round_trip (encK : KeyType → V) (encB : Bytes → V) (hK : ∀ k, W.keyType (encK k) = some k)
    (hB : ∀ b, W.bytes (encB b) = some b) (m : OwnerMemo) :
    W.visitMap [("key_type", encK m.keyType), ("blind_share_bytes", encB m.blindShare), ("lock_bytes", encB m.lock)] = .ok m := by
  rw [C66_decodes_iff]
  refine ⟨by simp, ?_, ?_, Or.inr ?_⟩ <;> simp [Wire.sharesIn, Wire.locksIn, Wire.typesIn, hK, hB]

/-- C66: a memo in the old layout (a compressed point, a structured ciphertext, no key type) is read as the Ed25519 memo
with the same bytes. -/
theorem C66_old_layout (share lock : V) (b : Bytes) (c : HybridCt) (hb : W.str share = some b) (hlen : b.length = 32)
    (hc : W.hybrid lock = some c) :
    W.visitMap [("blind_share", share), ("lock", lock)] = .ok ⟨.ed25519, b, c.toBytes⟩ := by
  rw [C66_decodes_iff]
  refine ⟨by simp, ?_, ?_, Or.inl ⟨?_, rfl⟩⟩ <;>
    simp [Wire.sharesIn, Wire.locksIn, Wire.typesIn, Wire.edwards, Wire.lockOld, hb, hc, hlen]

/-- C66: a weakness of the old name: a point of the wrong length makes the decoder panic instead of returning an error. -/
theorem C66_hostile_point_panics (share : V) (rest : List (String × V)) (b : Bytes) (hb : W.str share = some b)
    (hlen : b.length ≠ 32) : W.visitMap (("blind_share", share) :: rest) = .panic := by
  simp [Wire.visitMap, List.foldlM_cons, Wire.mapStep, Field.ofName, Wire.edwards, hb, hlen]

/-- C66: the positional form needs three values and reads each of them in the old or the new form. -/
theorem C66_positional (vals : List V) (m : OwnerMemo) (h : W.visitSeq vals = .ok m) :
    ∃ v0 v1 v2, vals.take 3 = [v0, v1, v2] ∧
      (W.isUnit v0 = true ∧ m.keyType = .ed25519 ∨ W.keyType v0 = some m.keyType) ∧
      (W.str v1 = some m.blindShare ∧ m.blindShare.length = 32 ∨ W.bytes v1 = some m.blindShare) ∧
      ((∃ c, W.hybrid v2 = some c ∧ m.lock = c.toBytes) ∨ W.bytes v2 = some m.lock) := by
  have some_of : ∀ {α : Type} {o : Option α} {x : α}, Res.ofOption o = .ok x → o = some x := by
    intro α o x h
    cases o with
    | none => simp at h
    | some y => simpa using h
  unfold Wire.visitSeq at h
  simp only [Res.bind_eq_ok] at h
  obtain ⟨v0, h0, kt, hk, v1, h1, sh, hs, v2, h2, lk, hl, hm⟩ := h
  simp only [Res.pure_eq, Res.ok.injEq] at hm
  subst hm
  have h0 := some_of h0
  have h1 := some_of h1
  have h2 := some_of h2
  refine ⟨v0, v1, v2, ?_, ?_, ?_, ?_⟩
  · match vals, h0, h1, h2 with
    | a :: b :: c :: l, h0, h1, h2 =>
      simp only [List.getElem?_cons_zero, List.getElem?_cons_succ, Option.some.injEq] at h0 h1 h2
      subst h0 h1 h2; rfl
  · unfold Wire.seqKeyType at hk
    split at hk
    · next hu => injection hk with hk; exact Or.inl ⟨hu, hk.symm⟩
    · exact Or.inr (some_of hk)
  · unfold Wire.seqShare at hs
    cases hst : W.str v1 with
    | none => rw [hst] at hs; exact Or.inr (some_of hs)
    | some b =>
      rw [hst] at hs
      simp only at hs
      split at hs
      · next hlen => injection hs with hs; subst hs; exact Or.inl ⟨rfl, hlen⟩
      · exact absurd hs (by simp)
  · unfold Wire.seqLock at hl
    cases hh : W.hybrid v2 with
    | none => rw [hh] at hl; exact Or.inr (some_of hl)
    | some c => rw [hh] at hl; injection hl with hl; exact Or.inl ⟨c, rfl, hl.symm⟩

/-! ### A small wire format, to show that the hypotheses can be met -/

/-- values of a toy format: a key type, a string of bytes (as base64 text would be), an array of bytes, a ciphertext -/
inductive ToyVal where
  | kt (k : KeyType) | text (b : Bytes) | arr (b : Bytes) | ct (c : HybridCt) | null

def toyWire : Wire ToyVal where
  keyType | .kt k => some k | _ => none
  str | .text b => some b | _ => none
  hybrid | .ct c => some c | _ => none
  bytes | .arr b => some b | _ => none
  isUnit | .null => true | _ => false

example : toyWire.visitMap [("lock_bytes", .arr [1, 2]), ("blind_share", .text (List.replicate 32 7))] =
    .ok ⟨.ed25519, List.replicate 32 7, [1, 2]⟩ := by decide +kernel
example : toyWire.visitMap [("lock_bytes", .arr [1, 2]), ("key_type", .kt .secp256k1), ("blind_share_bytes", .arr [3])] =
    .ok ⟨.secp256k1, [3], [1, 2]⟩ := by decide +kernel
example : toyWire.visitMap [("lock_bytes", .arr [1]), ("blind_share", .text (List.replicate 32 7)),
    ("blind_share_bytes", .arr [3])] = .err := by decide +kernel
example : toyWire.visitSeq [.null, .arr [3], .arr [4]] = .ok ⟨.ed25519, [3], [4]⟩ := by decide +kernel

end Verif.Xfr
