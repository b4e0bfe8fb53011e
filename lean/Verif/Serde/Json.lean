import Verif.Serde.JsonText
import Verif.Serde.Base64
import Verif.Serde.ReadBodies

/-!
Values in JSON: how serde maps the types of Rust to JSON trees and back (`serde` 1.0 with `serde_derive` and `serde_json`, dependencies,
modelled from their documented behaviour).  A codec can read what it writes, also when the members of objects come in another order.
-/

namespace Verif.Serde

/-! ### Order of members -/

/-- The trees differ at most in the order of the members of objects, at any depth. -/
inductive Reord : Json → Json → Prop
  | refl (j : Json) : Reord j j
  | arr (l m : List Json) : List.Forall₂ Reord l m → Reord (.arr l) (.arr m)
  | obj (l m l' : List (Bytes × Json)) : l.map Prod.fst = m.map Prod.fst → List.Forall₂ Reord (l.map Prod.snd) (m.map Prod.snd) →
    m.Perm l' → Reord (.obj l) (.obj l')

theorem reord_arr {l : List Json} {j : Json} (h : Reord (.arr l) j) : ∃ m : List Json, j = .arr m ∧ List.Forall₂ Reord l m := by
  cases h with
  | refl => exact ⟨l, rfl, List.forall₂_same.mpr (fun j _ => .refl j)⟩
  | arr _ m h => exact ⟨m, rfl, h⟩

theorem reord_obj {l : List (Bytes × Json)} {j : Json} (h : Reord (.obj l) j) :
    ∃ m l' : List (Bytes × Json), j = .obj l' ∧ l.map Prod.fst = m.map Prod.fst ∧ List.Forall₂ Reord (l.map Prod.snd) (m.map Prod.snd) ∧ m.Perm l' := by
  cases h with
  | refl => exact ⟨l, l, rfl, rfl, List.forall₂_same.mpr (fun j _ => .refl j), List.Perm.refl l⟩
  | obj _ m l' h1 h2 h3 => exact ⟨m, l', rfl, h1, h2, h3⟩

theorem reord_null {j : Json} (h : Reord .null j) : j = .null := by cases h; rfl
theorem reord_num {n : Nat} {j : Json} (h : Reord (.num n) j) : j = .num n := by cases h; rfl
theorem reord_str {s : Bytes} {j : Json} (h : Reord (.str s) j) : j = .str s := by cases h; rfl
theorem reord_to_null {j : Json} (h : Reord j .null) : j = .null := by cases h; rfl

/-- an object with one member -/
theorem reord_one {k : Bytes} {v j : Json} (h : Reord (.obj [(k, v)]) j) : ∃ v', j = .obj [(k, v')] ∧ Reord v v' := by
  obtain ⟨m, l', rfl, h1, h2, h3⟩ := reord_obj h
  match m, h1, h2, h3 with
  | [], h1, _, _ => simp at h1
  | [(k', v')], h1, h2, h3 =>
    simp only [List.map_cons, List.map_nil, List.cons.injEq, and_true] at h1
    simp only [List.map_cons, List.map_nil, List.forall₂_cons, List.Forall₂.nil, and_true] at h2
    subst h1
    have e := List.singleton_perm.mp h3
    exact ⟨v', by rw [← e], h2⟩
  | _ :: _ :: _, h1, _, _ => simp at h1

/-! ### Codecs -/

/-- `Serialize` and `Deserialize` of a type, and what a struct takes for a field of this type that is not there
(`serde::__private::de::missing_field`) -/
structure Codec (α : Type) where
  ser : α → Json
  de : Json → Res α
  missing : Res α

/-- what is written is read, at most `k` levels deep, and the order of members does not matter -/
structure Codec.Good {α : Type} (c : Codec α) (k : Nat) : Prop where
  back : ∀ a, c.de (c.ser a) = .ok a
  depth : ∀ a, (c.ser a).depth ≤ k
  perm : ∀ j j' a, Reord j j' → c.de j = .ok a → c.de j' = .ok a

theorem Codec.Good.mono {α : Type} {c : Codec α} {k m : Nat} (h : c.Good k) (hm : k ≤ m) : c.Good m :=
  ⟨h.back, fun a => Nat.le_trans (h.depth a) hm, h.perm⟩

/-- a value made from another -/
def Codec.via {α β : Type} (c : Codec α) (f : β → α) (g : α → Res β) : Codec β where
  ser b := c.ser (f b)
  de j := do
    let a ← c.de j
    g a
  missing := do
    let a ← c.missing
    g a

theorem good_via {α β : Type} {c : Codec α} {k : Nat} (h : c.Good k) {f : β → α} {g : α → Res β} (hg : ∀ b, g (f b) = .ok b) :
    (c.via f g).Good k where
  back b := by simp only [Codec.via, h.back, Res.bind_ok, hg]
  depth b := h.depth _
  perm j j' b hj hb := by
    obtain ⟨a, h1, h2⟩ := Res.bind_eq_ok.mp hb
    exact Res.bind_eq_ok.mpr ⟨a, h.perm j j' a hj h1, h2⟩

/-- an integer below a bound -/
def jNat (bound : Nat) : Codec { n : Nat // n < bound } where
  ser n := .num n
  de j := match j with
    | .num n => if h : n < bound then .ok ⟨n, h⟩ else .err
    | _ => .err
  missing := .err

theorem good_nat (bound : Nat) : (jNat bound).Good 0 where
  back n := by simp only [jNat, dif_pos n.2]
  depth n := by simp only [jNat, Json.depth]; exact Nat.le_refl _
  perm j j' a hj ha := by
    cases j with
    | num n => rw [reord_num hj]; exact ha
    | _ => simp [jNat] at ha

/-- `u8` -/
def jU8 : Codec UInt8 := (jNat 256).via (fun x => ⟨x.toNat, x.toNat_lt⟩) (fun n => .ok (UInt8.ofNat n.1))
/-- `u32` -/
def jU32 : Codec UInt32 := (jNat (2 ^ 32)).via (fun x => ⟨x.toNat, x.toNat_lt⟩) (fun n => .ok (UInt32.ofNat n.1))
/-- `u64` -/
def jU64 : Codec UInt64 := (jNat (2 ^ 64)).via (fun x => ⟨x.toNat, x.toNat_lt⟩) (fun n => .ok (UInt64.ofNat n.1))

theorem good_u8 : jU8.Good 0 := good_via (good_nat _) (fun b => by simp)
theorem good_u32 : jU32.Good 0 := good_via (good_nat _) (fun b => by simp)
theorem good_u64 : jU64.Good 0 := good_via (good_nat _) (fun b => by simp)

/-- a string -/
def jStr : Codec Bytes where
  ser s := .str s
  de j := match j with
    | .str s => .ok s
    | _ => .err
  missing := .err

theorem good_str : jStr.Good 0 where
  back s := rfl
  depth s := by simp only [jStr, Json.depth]; exact Nat.le_refl _
  perm j j' a hj ha := by
    cases j with
    | str s => rw [reord_str hj]; exact ha
    | _ => simp [jStr] at ha

/-- bytes of an object in a human-readable format, algebra/src/lib.rs:82-83, 96 and serialization.rs:209-214, 225-226, 238-239 -/
def jB64 : Codec Bytes := jStr.via b64enc (fun s => Res.ofOption (b64dec s))

theorem good_b64 : jB64.Good 0 := good_via good_str (fun b => by rw [b64dec_enc]; rfl)

/-- an object with `zei_to_bytes` and `zei_from_bytes` -/
def jLeaf {α : Type} (f : α → Bytes) (g : Bytes → Res α) : Codec α := jB64.via f g

theorem good_leaf {α : Type} {f : α → Bytes} {g : Bytes → Res α} (h : ∀ a, g (f a) = .ok a) : (jLeaf f g).Good 0 := good_via good_b64 h

/-- `serde_str`: a number as the text of its digits -/
def jDecimal : Codec UInt64 := jStr.via (fun x => decimal x.toNat) (fun s => Res.ofOption (parseU64 s))

theorem good_decimal : jDecimal.Good 0 := good_via good_str (fun b => by rw [parseU64_decimal]; rfl)

/-- `Option`; a field that is not there is `None` -/
def jOption {α : Type} (c : Codec α) : Codec (Option α) where
  ser o := match o with
    | none => .null
    | some a => c.ser a
  de j := match j with
    | .null => .ok none
    | j => do
      let a ← c.de j
      .ok (some a)
  missing := .ok none

theorem jOption_de {α : Type} (c : Codec α) {j : Json} (h : j ≠ .null) : (jOption c).de j = (do let a ← c.de j; .ok (some a)) := by
  cases j with
  | null => exact absurd rfl h
  | _ => rfl

theorem good_option {α : Type} {c : Codec α} {k : Nat} (h : c.Good k) (hn : ∀ a, c.ser a ≠ .null) : (jOption c).Good k where
  back o := by
    cases o with
    | none => rfl
    | some a =>
      change (jOption c).de (c.ser a) = _
      rw [jOption_de c (hn a), h.back]
      rfl
  depth o := by
    cases o with
    | none => simp [jOption, Json.depth]
    | some a => exact h.depth a
  perm j j' a hj ha := by
    by_cases e : j = .null
    · subst e
      rw [reord_null hj]
      exact ha
    · have e' : j' ≠ .null := fun e' => e (by subst e'; exact reord_to_null hj)
      rw [jOption_de c e] at ha
      rw [jOption_de c e']
      obtain ⟨b, h1, h2⟩ := Res.bind_eq_ok.mp ha
      exact Res.bind_eq_ok.mpr ⟨b, h.perm _ _ _ hj h1, h2⟩

/-- the elements of an array one after the other -/
def deList {α : Type} (de : Json → Res α) : List Json → Res (List α)
  | [] => .ok []
  | j :: l => do
    let a ← de j
    let b ← deList de l
    .ok (a :: b)

/-- `Vec` -/
def jVec {α : Type} (c : Codec α) : Codec (List α) where
  ser l := .arr (l.map c.ser)
  de j := match j with
    | .arr l => deList c.de l
    | _ => .err
  missing := .err

theorem elemsDepth_le {l : List Json} {k : Nat} (h : ∀ j ∈ l, j.depth ≤ k) : elemsDepth l ≤ k := by
  induction l with
  | nil => simp [elemsDepth]
  | cons j l ih =>
    simp only [elemsDepth]
    exact Nat.max_le.mpr ⟨h j List.mem_cons_self, ih (fun i hi => h i (List.mem_cons_of_mem _ hi))⟩

theorem deList_perm {α : Type} {c : Codec α} {k : Nat} (h : c.Good k) {l m : List Json} (hl : List.Forall₂ Reord l m) :
    ∀ a, deList c.de l = .ok a → deList c.de m = .ok a := by
  induction hl with
  | nil => exact fun a h => h
  | cons h1 _ ih =>
    intro a ha
    simp only [deList, Res.bind_eq_ok] at ha ⊢
    obtain ⟨x, hx, y, hy, e⟩ := ha
    exact ⟨x, h.perm _ _ _ h1 hx, y, ih _ hy, e⟩

theorem good_vec {α : Type} {c : Codec α} {k : Nat} (h : c.Good k) : (jVec c).Good (k + 1) where
  back l := by
    change deList c.de (l.map c.ser) = .ok l
    induction l with
    | nil => rfl
    | cons a l ih => simp only [List.map_cons, deList, h.back, Res.bind_ok, ih]
  depth l := by
    have : elemsDepth (l.map c.ser) ≤ k := elemsDepth_le (fun j hj => by
      obtain ⟨a, _, rfl⟩ := List.mem_map.mp hj
      exact h.depth a)
    simp only [jVec, Json.depth]
    omega
  perm j j' a hj ha := by
    cases j with
    | arr l =>
      obtain ⟨m, rfl, hm⟩ := reord_arr hj
      exact deList_perm h hm a ha
    | _ => simp [jVec] at ha

/-- a pair -/
def jPair {α β : Type} (c : Codec α) (e : Codec β) : Codec (α × β) where
  ser p := .arr [c.ser p.1, e.ser p.2]
  de j := match j with
    | .arr (x :: y :: r) => do
      let a ← c.de x
      let b ← e.de y
      if r.isEmpty then .ok (a, b) else .err
    | .arr [x] => do
      let _ ← c.de x
      .err
    | _ => .err
  missing := .err

theorem good_pair {α β : Type} {c : Codec α} {e : Codec β} {k m : Nat} (hc : c.Good k) (he : e.Good m) :
    (jPair c e).Good (max k m + 1) where
  back p := by
    change (do let a ← c.de (c.ser p.1); let b ← e.de (e.ser p.2); if ([] : List Json).isEmpty then Res.ok (a, b) else .err) = _
    simp only [hc.back, he.back, Res.bind_ok]
    rfl
  depth p := by
    have h1 := hc.depth p.1
    have h2 := he.depth p.2
    simp only [jPair, Json.depth, elemsDepth]
    omega
  perm j j' a hj ha := by
    cases j with
    | arr l =>
      obtain ⟨m, rfl, hm⟩ := reord_arr hj
      match l, m, hm, ha with
      | x :: y :: r, _, .cons (b := x') h1 (.cons (b := y') h2 h3), ha =>
        simp only [jPair, Res.bind_eq_ok] at ha ⊢
        obtain ⟨b, hb, d, hd, hr⟩ := ha
        refine ⟨b, hc.perm _ _ _ h1 hb, d, he.perm _ _ _ h2 hd, ?_⟩
        cases h3 with
        | nil => exact hr
        | cons _ _ => simp at hr
      | [x], _, .cons _ .nil, ha =>
        simp only [jPair, Res.bind_eq_ok] at ha
        obtain ⟨_, _, h⟩ := ha
        cases h
      | [], _, .nil, ha => simp [jPair] at ha
    | _ => simp [jPair] at ha

/-! ### Structs -/

/-- the fields of a struct: the code that `serde_derive` makes; `σ` holds the local variables of `visit_map`, one `Option` for each
field -/
structure Rec (σ α : Type) where
  names : List Bytes
  vals : α → List Json
  init : σ
  step : σ → Bytes × Json → Res σ
  finish : σ → Res α
  /-- `visit_seq` -/
  seq : List Json → Res α

/-- no fields: unknown members are skipped -/
def Rec.nil : Rec Unit Unit where
  names := []
  vals _ := []
  init := ()
  step st _ := .ok st
  finish _ := .ok ()
  seq l := if l.isEmpty then .ok () else .err

/-- one more field, declared before the others; a second member of its name is refused -/
def Rec.cons {σ α β : Type} (name : Bytes) (c : Codec α) (r : Rec σ β) : Rec (Option α × σ) (α × β) where
  names := name :: r.names
  vals p := c.ser p.1 :: r.vals p.2
  init := (none, r.init)
  step st x :=
    if x.1 = name then
      match st.1 with
      | some _ => .err
      | none => do
        let a ← c.de x.2
        .ok (some a, st.2)
    else do
      let st' ← r.step st.2 x
      .ok (st.1, st')
  finish st := do
    let a ← match st.1 with
      | some a => .ok a
      | none => c.missing
    let b ← r.finish st.2
    .ok (a, b)
  seq l := match l with
    | [] => .err
    | j :: l => do
      let a ← c.de j
      let b ← r.seq l
      .ok (a, b)

/-- the struct: an object, or an array of the fields in their order -/
def Rec.codec {σ α : Type} (r : Rec σ α) : Codec α where
  ser a := .obj (r.names.zip (r.vals a))
  de j := match j with
    | .obj l => do
      let st ← l.foldlM r.step r.init
      r.finish st
    | .arr l => r.seq l
    | _ => .err
  missing := .err

/-- what makes the struct a good codec -/
structure Rec.Good {σ α : Type} (r : Rec σ α) (k : Nat) : Prop where
  len : ∀ a, (r.vals a).length = r.names.length
  back : ∀ a, ∃ st, (r.names.zip (r.vals a)).foldlM r.step r.init = .ok st ∧ r.finish st = .ok a
  depth : ∀ a, ∀ j ∈ r.vals a, j.depth ≤ k
  val : ∀ st n j j' st', Reord j j' → r.step st (n, j) = .ok st' → r.step st (n, j') = .ok st'
  swap : ∀ st x y st', (r.step st x >>= fun s => r.step s y) = .ok st' → (r.step st y >>= fun s => r.step s x) = .ok st'
  seq : ∀ l m a, List.Forall₂ Reord l m → r.seq l = .ok a → r.seq m = .ok a
  skip : ∀ st x, x.1 ∉ r.names → r.step st x = .ok st
  dup : ∀ st x y st', x.1 = y.1 → x.1 ∈ r.names → (r.step st x >>= fun s => r.step s y) ≠ .ok st'

theorem rec_good_nil : Rec.nil.Good 0 where
  len _ := rfl
  back _ := ⟨(), rfl, rfl⟩
  depth _ j hj := by simp [Rec.nil] at hj
  val _ _ _ _ _ _ h := h
  swap _ _ _ _ h := h
  seq l m a h ha := by
    cases h with
    | nil => exact ha
    | cons _ _ => simp [Rec.nil] at ha
  skip _ _ _ := rfl
  dup st x y st' _ h := by simp [Rec.nil] at h

theorem fold_cons_skip {σ α β : Type} {name : Bytes} {c : Codec α} {r : Rec σ β} {l : List (Bytes × Json)} (h : ∀ x ∈ l, x.1 ≠ name)
    (o : Option α) (st st' : σ) (hl : l.foldlM r.step st = .ok st') :
    l.foldlM (Rec.cons name c r).step (o, st) = .ok (o, st') := by
  induction l generalizing st with
  | nil =>
    simp only [List.foldlM_nil, Res.pure_eq, Res.ok.injEq] at hl ⊢
    rw [hl]
  | cons x l ih =>
    rw [List.foldlM_cons] at hl ⊢
    obtain ⟨s, h1, h2⟩ := Res.bind_eq_ok.mp hl
    refine Res.bind_eq_ok.mpr ⟨(o, s), ?_, ih (fun y hy => h y (List.mem_cons_of_mem _ hy)) s h2⟩
    simp only [Rec.cons, if_neg (h x List.mem_cons_self), h1, Res.bind_ok]

theorem rec_good_cons {σ α β : Type} {name : Bytes} {c : Codec α} {r : Rec σ β} {k m : Nat} (hc : c.Good k) (hr : r.Good m)
    (hn : name ∉ r.names) : (Rec.cons name c r).Good (max k m) where
  len p := by simp only [Rec.cons, List.length_cons, hr.len]
  back p := by
    obtain ⟨st, h1, h2⟩ := hr.back p.2
    refine ⟨(some p.1, st), ?_, ?_⟩
    · change (((name, c.ser p.1) :: r.names.zip (r.vals p.2)).foldlM (Rec.cons name c r).step (none, r.init)) = _
      rw [List.foldlM_cons]
      have e : (Rec.cons name c r).step (none, r.init) (name, c.ser p.1) = .ok (some p.1, r.init) := by
        simp only [Rec.cons, if_true, hc.back, Res.bind_ok]
      rw [e, Res.bind_ok]
      refine fold_cons_skip (fun x hx e => hn ?_) _ _ _ h1
      rw [← e]
      exact (List.of_mem_zip hx).1
    · simp only [Rec.cons, Res.bind_ok, h2]
  depth p j hj := by
    simp only [Rec.cons, List.mem_cons] at hj
    rcases hj with rfl | hj
    · exact Nat.le_trans (hc.depth _) (Nat.le_max_left _ _)
    · exact Nat.le_trans (hr.depth _ _ hj) (Nat.le_max_right _ _)
  val st n j j' st' hj h := by
    simp only [Rec.cons] at h ⊢
    split_ifs at h ⊢ with e
    · cases h1 : st.1 with
      | some _ => rw [h1] at h; cases h
      | none =>
        rw [h1] at h
        simp only [Res.bind_eq_ok] at h ⊢
        obtain ⟨a, ha, e⟩ := h
        exact ⟨a, hc.perm _ _ _ hj ha, e⟩
    · simp only [Res.bind_eq_ok] at h ⊢
      obtain ⟨s, hs, e⟩ := h
      exact ⟨s, hr.val _ _ _ _ _ hj hs, e⟩
  swap st x y st' h := by
    obtain ⟨o, s0⟩ := st
    simp only [Res.bind_eq_ok, Rec.cons] at h ⊢
    obtain ⟨⟨o1, s1⟩, h1, h2⟩ := h
    by_cases ex : x.1 = name <;> by_cases ey : y.1 = name
    · simp only [if_pos ex, if_pos ey] at h1 h2
      cases o with
      | some _ => cases h1
      | none =>
        simp only [Res.bind_eq_ok, Res.ok.injEq, Prod.mk.injEq] at h1
        obtain ⟨a, _, rfl, _⟩ := h1
        cases h2
    · simp only [if_pos ex, if_neg ey] at h1 h2
      simp only [if_pos ex, if_neg ey]
      cases o with
      | some _ => cases h1
      | none =>
        simp only [Res.bind_eq_ok, Res.ok.injEq, Prod.mk.injEq] at h1 h2
        obtain ⟨a, ha, rfl, rfl⟩ := h1
        obtain ⟨t, ht, rfl⟩ := h2
        exact ⟨(none, t), by simp [ht], by simp [ha]⟩
    · simp only [if_neg ex, if_pos ey] at h1 h2
      simp only [if_neg ex, if_pos ey]
      simp only [Res.bind_eq_ok, Res.ok.injEq, Prod.mk.injEq] at h1
      obtain ⟨t, ht, rfl, rfl⟩ := h1
      cases o with
      | some _ => cases h2
      | none =>
        simp only [Res.bind_eq_ok, Res.ok.injEq] at h2
        obtain ⟨a, ha, rfl⟩ := h2
        exact ⟨(some a, s0), by simp [ha], by simp [ht]⟩
    · simp only [if_neg ex, if_neg ey] at h1 h2
      simp only [if_neg ex, if_neg ey]
      simp only [Res.bind_eq_ok, Res.ok.injEq, Prod.mk.injEq] at h1 h2
      obtain ⟨t, ht, rfl, rfl⟩ := h1
      obtain ⟨u, hu, rfl⟩ := h2
      obtain ⟨v, hv, hw⟩ := Res.bind_eq_ok.mp (hr.swap s0 x y u (Res.bind_eq_ok.mpr ⟨_, ht, hu⟩))
      exact ⟨(o, v), by simp [hv], by simp [hw]⟩
  seq l m a hl ha := by
    cases hl with
    | nil => exact ha
    | cons h1 h2 =>
      simp only [Rec.cons, Res.bind_eq_ok] at ha ⊢
      obtain ⟨x, hx, y, hy, e⟩ := ha
      exact ⟨x, hc.perm _ _ _ h1 hx, y, hr.seq _ _ _ h2 hy, e⟩
  skip st x hx := by
    simp only [Rec.cons, List.mem_cons, not_or] at hx ⊢
    rw [if_neg hx.1, hr.skip _ _ hx.2]
    rfl
  dup st x y st' e hx h := by
    obtain ⟨o, s0⟩ := st
    simp only [Res.bind_eq_ok, Rec.cons] at h
    obtain ⟨⟨o1, s1⟩, h1, h2⟩ := h
    by_cases ex : x.1 = name
    · simp only [if_pos ex, if_pos (e.symm.trans ex)] at h1 h2
      cases o with
      | some _ => cases h1
      | none =>
        simp only [Res.bind_eq_ok, Res.ok.injEq, Prod.mk.injEq] at h1
        obtain ⟨a, _, rfl, _⟩ := h1
        cases h2
    · have ey : y.1 ≠ name := fun h => ex (e.trans h)
      simp only [if_neg ex, if_neg ey, Res.bind_eq_ok, Res.ok.injEq, Prod.mk.injEq] at h1 h2
      obtain ⟨t, ht, rfl, rfl⟩ := h1
      obtain ⟨u, hu, rfl⟩ := h2
      simp only [Rec.cons, List.mem_cons, ex, false_or] at hx
      exact hr.dup s0 x y u e hx (Res.bind_eq_ok.mpr ⟨_, ht, hu⟩)

/-- steps can be taken in any order -/
theorem fold_perm {σ τ : Type} {step : σ → τ → Res σ}
    (swap : ∀ st x y st', (step st x >>= fun s => step s y) = .ok st' → (step st y >>= fun s => step s x) = .ok st')
    {l m : List τ} (h : l.Perm m) : ∀ st st', l.foldlM step st = .ok st' → m.foldlM step st = .ok st' := by
  induction h with
  | nil => exact fun _ _ h => h
  | cons x _ ih =>
    intro st st' h
    rw [List.foldlM_cons] at h ⊢
    obtain ⟨s, h1, h2⟩ := Res.bind_eq_ok.mp h
    exact Res.bind_eq_ok.mpr ⟨s, h1, ih _ _ h2⟩
  | swap x y l =>
    intro st st' h
    rw [List.foldlM_cons] at h ⊢
    obtain ⟨s, h1, h2⟩ := Res.bind_eq_ok.mp h
    rw [List.foldlM_cons] at h2
    obtain ⟨s2, h3, h4⟩ := Res.bind_eq_ok.mp h2
    obtain ⟨s3, h5, h6⟩ := Res.bind_eq_ok.mp (swap st y x s2 (Res.bind_eq_ok.mpr ⟨s, h1, h3⟩))
    refine Res.bind_eq_ok.mpr ⟨s3, h5, ?_⟩
    rw [List.foldlM_cons]
    exact Res.bind_eq_ok.mpr ⟨s2, h6, h4⟩
  | trans _ _ ih1 ih2 => exact fun st st' h => ih2 _ _ (ih1 _ _ h)

/-- members with the same names and reordered values -/
theorem fold_val {σ : Type} {step : σ → Bytes × Json → Res σ}
    (val : ∀ st n j j' st', Reord j j' → step st (n, j) = .ok st' → step st (n, j') = .ok st') :
    ∀ (l m : List (Bytes × Json)), l.map Prod.fst = m.map Prod.fst → List.Forall₂ Reord (l.map Prod.snd) (m.map Prod.snd) →
    ∀ st st', l.foldlM step st = .ok st' → m.foldlM step st = .ok st'
  | [], [], _, _, _, _, h => h
  | [], _ :: _, h, _, _, _, _ => by simp at h
  | _ :: _, [], h, _, _, _, _ => by simp at h
  | (n, j) :: l, (n', j') :: m, h1, h2, st, st', h => by
    simp only [List.map_cons, List.cons.injEq] at h1
    simp only [List.map_cons, List.forall₂_cons] at h2
    obtain ⟨rfl, h1⟩ := h1
    rw [List.foldlM_cons] at h ⊢
    obtain ⟨s, h3, h4⟩ := Res.bind_eq_ok.mp h
    exact Res.bind_eq_ok.mpr ⟨s, val _ _ _ _ _ h2.1 h3, fold_val val l m h1 h2.2 _ _ h4⟩

theorem membersDepth_le {l : List (Bytes × Json)} {k : Nat} (h : ∀ x ∈ l, x.2.depth ≤ k) : membersDepth l ≤ k := by
  induction l with
  | nil => simp [membersDepth]
  | cons x l ih =>
    obtain ⟨n, j⟩ := x
    simp only [membersDepth]
    exact Nat.max_le.mpr ⟨h (n, j) List.mem_cons_self, ih (fun i hi => h i (List.mem_cons_of_mem _ hi))⟩

theorem good_rec {σ α : Type} {r : Rec σ α} {k : Nat} (h : r.Good k) : r.codec.Good (k + 1) where
  back a := by
    obtain ⟨st, h1, h2⟩ := h.back a
    exact Res.bind_eq_ok.mpr ⟨st, h1, h2⟩
  depth a := by
    have : membersDepth (r.names.zip (r.vals a)) ≤ k :=
      membersDepth_le (fun x hx => h.depth a _ (List.of_mem_zip (a := x.1) (b := x.2) hx).2)
    simp only [Rec.codec, Json.depth]
    omega
  perm j j' a hj ha := by
    cases j with
    | obj l =>
      obtain ⟨m, l', rfl, h1, h2, h3⟩ := reord_obj hj
      obtain ⟨st, h4, h5⟩ := Res.bind_eq_ok.mp ha
      exact Res.bind_eq_ok.mpr ⟨st, fold_perm h.swap h3 _ _ (fold_val h.val l m h1 h2 _ _ h4), h5⟩
    | arr l =>
      obtain ⟨m, rfl, hm⟩ := reord_arr hj
      exact h.seq _ _ _ hm ha
    | _ => simp [Rec.codec] at ha

theorem rec_ne_null {σ α : Type} (r : Rec σ α) (a : α) : r.codec.ser a ≠ .null := by simp [Rec.codec]

/-- A field that is given twice makes the object unreadable. -/
theorem rec_twice {σ α : Type} {r : Rec σ α} {k : Nat} (h : r.Good k) (name : Bytes) (hn : name ∈ r.names) (l : List (Bytes × Json))
    (hl : 2 ≤ (l.map Prod.fst).count name) (a : α) : r.codec.de (.obj l) ≠ .ok a := by
  intro ha
  obtain ⟨st, h1, -⟩ := Res.bind_eq_ok.mp ha
  have hp : (l.filter (fun x => x.1 == name) ++ l.filter (fun x => !(x.1 == name))).Perm l := List.filter_append_perm _ _
  have h2 := fold_perm h.swap hp.symm _ _ h1
  have hc : (l.map Prod.fst).count name = (l.filter (fun x => x.1 == name)).length := by
    rw [List.count_eq_countP, List.countP_map, List.countP_eq_length_filter]
    rfl
  match hf : l.filter (fun x => x.1 == name) with
  | [] => rw [hf] at hc; simp at hc; omega
  | [_] => rw [hf] at hc; simp at hc; omega
  | x :: y :: t =>
    have hx : x ∈ l.filter (fun x => x.1 == name) := by rw [hf]; simp
    have hy : y ∈ l.filter (fun x => x.1 == name) := by rw [hf]; simp
    have ex : x.1 = name := by simpa using (List.mem_filter.mp hx).2
    have ey : y.1 = name := by simpa using (List.mem_filter.mp hy).2
    rw [hf, List.cons_append, List.cons_append, List.foldlM_cons] at h2
    obtain ⟨s1, h3, h4⟩ := Res.bind_eq_ok.mp h2
    rw [List.foldlM_cons] at h4
    obtain ⟨s2, h5, -⟩ := Res.bind_eq_ok.mp h4
    exact h.dup _ x y s2 (ex.trans ey.symm) (by rw [ex]; exact hn) (Res.bind_eq_ok.mpr ⟨s1, h3, h5⟩)

/-- members of other names are skipped -/
theorem rec_skip {σ α : Type} {r : Rec σ α} {k : Nat} (h : r.Good k) (l : List (Bytes × Json)) (x : Bytes × Json) (hx : x.1 ∉ r.names) :
    r.codec.de (.obj (x :: l)) = r.codec.de (.obj l) := by
  simp only [Rec.codec, List.foldlM_cons, h.skip _ _ hx, Res.bind_ok]

/-! ### Enums -/

/-- An enum, externally tagged: a variant without data is its name; one with data is an object from its name to the data.  A variant
without data is also taken from an object with `null`. -/
def deEnum {α : Type} (unit : Bytes → Res α) (data : Bytes → Json → Res α) : Json → Res α
  | .str s => unit s
  | .obj [(k, v)] => data k v
  | _ => .err

theorem deEnum_perm {α : Type} {unit : Bytes → Res α} {data : Bytes → Json → Res α}
    (h : ∀ k v v' a, Reord v v' → data k v = .ok a → data k v' = .ok a) (j j' : Json) (a : α) (hj : Reord j j')
    (ha : deEnum unit data j = .ok a) : deEnum unit data j' = .ok a := by
  match j, hj, ha with
  | .str s, hj, ha => rw [reord_str hj]; exact ha
  | .obj [(k, v)], hj, ha =>
    obtain ⟨v', rfl, hv⟩ := reord_one hj
    exact h _ _ _ _ hv ha
  | .null, _, ha => simp [deEnum] at ha
  | .bool _, _, ha => simp [deEnum] at ha
  | .num _, _, ha => simp [deEnum] at ha
  | .arr _, _, ha => simp [deEnum] at ha
  | .obj [], _, ha => simp [deEnum] at ha
  | .obj (_ :: _ :: _), _, ha => simp [deEnum] at ha

/-! ### Texts -/

/-- `serde_json::to_string` -/
def toJson {α : Type} (c : Codec α) (a : α) : Bytes := (c.ser a).text

/-- `serde_json::from_str` -/
def fromJson {α : Type} (c : Codec α) (t : Bytes) : Res α := do
  let j ← Res.ofOption (parseJson t)
  c.de j

theorem elemsDepth_mem {l : List Json} {k : Nat} (h : elemsDepth l ≤ k) : ∀ j ∈ l, j.depth ≤ k := by
  induction l with
  | nil => simp
  | cons j l ih =>
    simp only [elemsDepth, Nat.max_le] at h
    intro i hi
    rcases List.mem_cons.mp hi with rfl | hi
    · exact h.1
    · exact ih h.2 i hi

theorem membersDepth_mem {l : List (Bytes × Json)} {k : Nat} (h : membersDepth l ≤ k) : ∀ j ∈ l.map Prod.snd, j.depth ≤ k := by
  induction l with
  | nil => simp
  | cons x l ih =>
    obtain ⟨n, j⟩ := x
    simp only [membersDepth, Nat.max_le] at h
    intro i hi
    rcases List.mem_cons.mp hi with rfl | hi
    · exact h.1
    · exact ih h.2 i hi

theorem forall₂_right {α β : Type} {R : α → β → Prop} {p : α → Prop} {q : β → Prop} (hpq : ∀ a b, R a b → p a → q b) {l : List α} {m : List β}
    (h : List.Forall₂ R l m) : (∀ a ∈ l, p a) → ∀ b ∈ m, q b := by
  induction h with
  | nil => simp
  | cons h1 _ ih =>
    intro hp b hb
    rcases List.mem_cons.mp hb with rfl | hb
    · exact hpq _ _ h1 (hp _ List.mem_cons_self)
    · exact ih (fun a ha => hp a (List.mem_cons_of_mem _ ha)) b hb

/-- the order of members does not make a tree deeper -/
theorem reord_depth (k : Nat) : ∀ j j' : Json, Reord j j' → j.depth ≤ k → j'.depth ≤ k := by
  induction k with
  | zero =>
    intro j j' h hd
    cases h with
    | refl => exact hd
    | arr l m _ => simp [Json.depth] at hd
    | obj l m l' _ _ _ => simp [Json.depth] at hd
  | succ k ih =>
    intro j j' h hd
    cases h with
    | refl => exact hd
    | arr l m hm =>
      simp only [Json.depth] at hd ⊢
      have := elemsDepth_le (forall₂_right (p := fun j => j.depth ≤ k) (q := fun j => j.depth ≤ k) ih hm
        (elemsDepth_mem (by omega)))
      omega
    | obj l m l' h1 h2 h3 =>
      simp only [Json.depth] at hd ⊢
      have hm := forall₂_right (p := fun j => j.depth ≤ k) (q := fun j => j.depth ≤ k) ih h2 (membersDepth_mem (by omega))
      have := membersDepth_le (l := l') (k := k) (fun x hx => hm x.2 (List.mem_map.mpr ⟨x, h3.mem_iff.mpr hx, rfl⟩))
      omega

/-- Any text of what was written is read back, whatever the spaces and the order of members. -/
theorem fromJson_writes {α : Type} {c : Codec α} {k : Nat} (h : c.Good k) (hk : k < 128) (a : α) {j : Json} (hj : Reord (c.ser a) j)
    {t : Bytes} (ht : Writes j t) (w v : Bytes) (hw : Spaces w) (hv : Spaces v) : fromJson c (w ++ (t ++ v)) = .ok a := by
  have hd := reord_depth k _ _ hj (h.depth a)
  unfold fromJson
  rw [parseJson_writes ht (by omega) w v hw hv]
  exact h.perm _ _ _ hj (h.back a)

theorem fromJson_toJson {α : Type} {c : Codec α} {k : Nat} (h : c.Good k) (hk : k < 128) (a : α) : fromJson c (toJson c a) = .ok a := by
  have hd := h.depth a
  unfold fromJson toJson
  rw [parseJson_text _ (by omega)]
  exact h.back a

end Verif.Serde
