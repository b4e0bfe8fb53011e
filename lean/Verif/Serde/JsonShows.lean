import Verif.Serde.JsonNotes

/-!
C112: other programs that read the JSON of a note, such as explorers and wallets in other languages, go by the names of the members.  What they find
under a name in a document that the node takes for a note is what the node takes from it.
-/

namespace Verif.Serde

open Verif.Xfr (Types XfrAmount XfrAssetType BlindAssetRecord XfrNote)
open Verif.Anon (ArToAbarNote BarToAbarNote AbarToArNote AbarToBarNote)

/-! ### How another program finds its way -/

/-- the value of a member of an object -/
def Json.member (j : Json) (n : Bytes) : Option Json :=
  match j with
  | .obj l => (l.find? (fun x => x.1 = n)).map Prod.snd
  | _ => none

/-- an element of an array -/
def Json.item (j : Json) (i : Nat) : Option Json :=
  match j with
  | .arr l => l[i]?
  | _ => none

/-- one step into a document -/
inductive Step
  | name (n : Bytes)
  | nth (i : Nat)

/-- a member of the given name -/
macro "n! " s:str : term => `(Step.name (ascii! $s))

/-- where the steps lead -/
def Json.at (j : Json) : List Step → Option Json
  | [] => some j
  | .name n :: p => (j.member n).bind (fun k => k.at p)
  | .nth i :: p => (j.item i).bind (fun k => k.at p)

/-! ### Structs -/

/-- a struct takes no notice of members with this name -/
def Rec.Ignores {σ α : Type} (r : Rec σ α) (n : Bytes) : Prop := ∀ st v, r.step st (n, v) = .ok st

theorem ignores_nil (n : Bytes) : Rec.nil.Ignores n := fun _ _ => rfl

theorem ignores_cons {σ α β : Type} {name n : Bytes} {c : Codec α} {r : Rec σ β} (h : n ≠ name) (hr : r.Ignores n) :
    (Rec.cons name c r).Ignores n := fun st v => by
  simp only [Rec.cons, if_neg h, hr st.2 v, Res.bind_ok]

theorem fold_cons {σ α β : Type} {name : Bytes} {c : Codec α} {r : Rec σ β} (hr : r.Ignores name) (l : List (Bytes × Json)) :
    ∀ s t, l.foldlM (Rec.cons name c r).step s = .ok t →
      l.foldlM r.step s.2 = .ok t.2 ∧ (∀ a, s.1 = some a → t.1 = some a) ∧ ∀ v, (name, v) ∈ l → ∃ a, t.1 = some a ∧ c.de v = .ok a := by
  induction l with
  | nil =>
    intro s t h
    cases h
    exact ⟨rfl, fun _ h => h, fun v hv => by cases hv⟩
  | cons y l ih =>
    intro s t h
    rw [List.foldlM_cons] at h ⊢
    obtain ⟨s', h1, h2⟩ := Res.bind_eq_ok.mp h
    obtain ⟨i1, i2, i3⟩ := ih s' t h2
    obtain ⟨n, w⟩ := y
    by_cases hn : n = name
    · subst hn
      rw [hr s.2 w, Res.bind_ok]
      simp only [Rec.cons, if_true] at h1
      split at h1
      · cases h1
      · rename_i e
        obtain ⟨a, ha, e'⟩ := Res.bind_eq_ok.mp h1
        cases e'
        refine ⟨i1, fun b hb => (by rw [e] at hb; cases hb), fun v hv => ?_⟩
        rcases List.mem_cons.mp hv with hv | hv
        · cases hv
          exact ⟨a, i2 a rfl, ha⟩
        · exact i3 v hv
    · simp only [Rec.cons, if_neg hn] at h1
      obtain ⟨u, hu, e'⟩ := Res.bind_eq_ok.mp h1
      cases e'
      refine ⟨Res.bind_eq_ok.mpr ⟨u, hu, i1⟩, i2, fun v hv => ?_⟩
      rcases List.mem_cons.mp hv with hv | hv
      · cases hv
        exact absurd rfl hn
      · exact i3 v hv

theorem member_mem {j : Json} {n : Bytes} {v : Json} (h : j.member n = some v) : ∃ l, j = .obj l ∧ (n, v) ∈ l := by
  cases j with
  | obj l =>
    simp only [Json.member, Option.map_eq_some_iff] at h
    obtain ⟨⟨m, w⟩, h1, h2⟩ := h
    cases h2
    have hm := List.mem_of_find?_eq_some h1
    have := List.find?_some h1
    simp only [decide_eq_true_eq] at this
    cases this
    exact ⟨l, rfl, hm⟩
  | _ => cases h

/-- what stands under the name of the first field is what the field was read from -/
theorem seen_first {σ α β : Type} {name : Bytes} {c : Codec α} {r : Rec σ β} (hr : r.Ignores name) {j v : Json} {x : α × β}
    (h : (Rec.cons name c r).codec.de j = .ok x) (hm : j.member name = some v) : c.de v = .ok x.1 := by
  obtain ⟨l, rfl, hv⟩ := member_mem hm
  obtain ⟨st, h1, h2⟩ := Res.bind_eq_ok.mp h
  obtain ⟨-, -, h3⟩ := fold_cons hr l _ _ h1
  obtain ⟨a, ha, hd⟩ := h3 v hv
  simp only [Rec.cons, ha, Res.bind_ok] at h2
  obtain ⟨b, -, e⟩ := Res.bind_eq_ok.mp h2
  cases e
  exact hd

/-- the other fields are read as if the first were not declared -/
theorem seen_rest {σ α β : Type} {name n : Bytes} {c : Codec α} {r : Rec σ β} (hr : r.Ignores name) {j v : Json} {x : α × β}
    (h : (Rec.cons name c r).codec.de j = .ok x) (hm : j.member n = some v) : r.codec.de j = .ok x.2 := by
  obtain ⟨l, rfl, -⟩ := member_mem hm
  obtain ⟨st, h1, h2⟩ := Res.bind_eq_ok.mp h
  obtain ⟨h3, -, -⟩ := fold_cons hr l _ _ h1
  refine Res.bind_eq_ok.mpr ⟨st.2, h3, ?_⟩
  simp only [Rec.cons] at h2
  split at h2
  all_goals
    obtain ⟨a, -, h2⟩ := Res.bind_eq_ok.mp h2
    obtain ⟨b, hb, e⟩ := Res.bind_eq_ok.mp h2
    cases e
    exact hb

/-- the names of a struct are different -/
macro "ign" : tactic => `(tactic| (repeat (first | exact ignores_nil _ | refine ignores_cons (by decide) ?_)))

/-! ### Vectors and leaves -/

theorem deList_seen {α : Type} (de : Json → Res α) (js : List Json) : ∀ l, deList de js = .ok l → js.length = l.length ∧
    ∀ (i : Nat) v, js[i]? = some v → ∃ a, l[i]? = some a ∧ de v = .ok a := by
  induction js with
  | nil =>
    intro l h
    cases h
    exact ⟨rfl, fun i v h => by simp at h⟩
  | cons j js ih =>
    intro l h
    obtain ⟨a, ha, h⟩ := Res.bind_eq_ok.mp h
    obtain ⟨b, hb, h⟩ := Res.bind_eq_ok.mp h
    cases h
    obtain ⟨h1, h2⟩ := ih b hb
    refine ⟨by simp [h1], fun i v hv => ?_⟩
    cases i with
    | zero =>
      simp only [List.getElem?_cons_zero, Option.some.injEq] at hv ⊢
      exact ⟨a, rfl, hv ▸ ha⟩
    | succ i =>
      simp only [List.getElem?_cons_succ] at hv ⊢
      exact h2 i v hv

theorem vec_seen {α : Type} {c : Codec α} {j : Json} {l : List α} (h : (jVec c).de j = .ok l) : ∃ js, j = .arr js ∧ js.length = l.length ∧
    ∀ (i : Nat) v, j.item i = some v → ∃ a, l[i]? = some a ∧ c.de v = .ok a := by
  cases j with
  | arr js =>
    obtain ⟨h1, h2⟩ := deList_seen c.de js l h
    exact ⟨js, rfl, h1, h2⟩
  | _ => cases h

/-- `v` is a text in base64 for the bytes of `a` -/
def TextOf {α : Type} (g : Bytes → Res α) (a : α) (v : Json) : Prop := ∃ s b, v = .str s ∧ b64dec s = some b ∧ g b = .ok a

theorem leaf_seen {α : Type} {f : α → Bytes} {g : Bytes → Res α} {v : Json} {a : α} (h : (jLeaf f g).de v = .ok a) : TextOf g a v := by
  obtain ⟨b, hb, hg⟩ := Res.bind_eq_ok.mp h
  obtain ⟨s, hs, hd⟩ := Res.bind_eq_ok.mp hb
  cases v with
  | str t =>
    cases hs
    exact ⟨s, b, rfl, ofOption_ok.mp hd, hg⟩
  | _ => cases hs

theorem leaf_text {α : Type} {f : α → Bytes} {g : Bytes → Res α} (a : α) (h : g (f a) = .ok a) : TextOf g a ((jLeaf f g).ser a) :=
  ⟨_, _, rfl, b64dec_enc _, h⟩

theorem decimal_seen {v : Json} {a : UInt64} (h : jDecimal.de v = .ok a) : ∃ s, v = .str s ∧ parseU64 s = some a := by
  obtain ⟨s, hs, hd⟩ := Res.bind_eq_ok.mp h
  cases v with
  | str t =>
    cases hs
    exact ⟨s, rfl, ofOption_ok.mp hd⟩
  | _ => cases hs

theorem nat_seen {k : Nat} {v : Json} {n : { n : Nat // n < k }} (h : (jNat k).de v = .ok n) : v = .num n.1 := by
  cases v with
  | num m =>
    simp only [jNat] at h
    split_ifs at h
    cases h
    rfl
  | _ => cases h

theorem u8_seen {v : Json} {x : UInt8} (h : jU8.de v = .ok x) : v = .num x.toNat := by
  obtain ⟨n, hn, e⟩ := Res.bind_eq_ok.mp h
  cases e
  rw [nat_seen hn]
  simp [Nat.mod_eq_of_lt n.2]

theorem u32_seen {v : Json} {x : UInt32} (h : jU32.de v = .ok x) : v = .num x.toNat := by
  obtain ⟨n, hn, e⟩ := Res.bind_eq_ok.mp h
  cases e
  rw [nat_seen hn]
  simp [Nat.mod_eq_of_lt n.2]

theorem u64_seen {v : Json} {x : UInt64} (h : jU64.de v = .ok x) : v = .num x.toNat := by
  obtain ⟨n, hn, e⟩ := Res.bind_eq_ok.mp h
  cases e
  rw [nat_seen hn]
  simp [Nat.mod_eq_of_lt n.2]

theorem bytes_seen {v : Json} {b : Bytes} (h : (jVec jU8).de v = .ok b) : v = .arr (b.map (fun x => .num x.toNat)) := by
  cases v with
  | arr l =>
    have key : ∀ (l : List Json) b, deList jU8.de l = .ok b → l = b.map (fun x => .num x.toNat) := by
      intro l
      induction l with
      | nil =>
        intro b h
        cases h
        rfl
      | cons j l ih =>
        intro b h
        obtain ⟨x, hx, h⟩ := Res.bind_eq_ok.mp h
        obtain ⟨r, hr, h⟩ := Res.bind_eq_ok.mp h
        cases h
        rw [List.map_cons, ← ih r hr, u8_seen hx]
    rw [key l b h]
  | _ => cases h

theorem pair_seen {α β : Type} {c : Codec α} {e : Codec β} {v : Json} {p : α × β} (h : (jPair c e).de v = .ok p) :
    ∃ x y, v = .arr [x, y] ∧ c.de x = .ok p.1 ∧ e.de y = .ok p.2 := by
  match v, h with
  | .arr (x :: y :: r), h =>
    obtain ⟨a, ha, h⟩ := Res.bind_eq_ok.mp h
    obtain ⟨b, hb, h⟩ := Res.bind_eq_ok.mp h
    cases r with
    | nil =>
      cases h
      exact ⟨x, y, rfl, ha, hb⟩
    | cons z r => cases h
  | .arr [x], h =>
    obtain ⟨a, ha, h⟩ := Res.bind_eq_ok.mp h
    cases h

theorem enum_seen {α : Type} {unit : Bytes → Res α} {data : Bytes → Json → Res α} {j v : Json} {n : Bytes} {a : α}
    (h : deEnum unit data j = .ok a) (hm : j.member n = some v) : data n v = .ok a := by
  match j, h with
  | .obj [(k, w)], h =>
    obtain ⟨l, e, hv⟩ := member_mem hm
    cases e
    rw [List.mem_singleton] at hv
    cases hv
    exact h
  | .str s, h => cases hm

/-! ### Records -/

section
variable {S : Types} (L : Leaves S) (R : Parse S)

/-- what another program finds in the JSON of a record is what is in the record -/
structure BarSeen (r : BlindAssetRecord S) (j : Json) : Prop where
  /-- the text under `amount.NonConfidential` is the amount, in decimal -/
  amount : ∀ v, j.at [n! "amount", n! "NonConfidential"] = some v → ∃ s a, v = .str s ∧ parseU64 s = some a ∧ r.amount = .plain a
  /-- the two texts under `amount.Confidential` are the commitments -/
  hiddenAmount : ∀ v, j.at [n! "amount", n! "Confidential"] = some v →
    ∃ x y lo hi, v = .arr [x, y] ∧ TextOf R.cg lo x ∧ TextOf R.cg hi y ∧ r.amount = .conf lo hi
  /-- the 32 numbers under `asset_type.NonConfidential` are the type -/
  assetType : ∀ v, j.at [n! "asset_type", n! "NonConfidential"] = some v →
    ∃ b : { b : Bytes // b.length = 32 }, v = .arr (b.1.map (fun x => .num x.toNat)) ∧ r.assetType = .plain (R.at' b)
  /-- the text under `asset_type.Confidential` is the commitment -/
  hiddenType : ∀ v, j.at [n! "asset_type", n! "Confidential"] = some v → ∃ c, TextOf R.cg c v ∧ r.assetType = .conf c
  /-- the text under `public_key` is the owner's key -/
  owner : ∀ v, j.at [n! "public_key"] = some v → TextOf R.pk r.publicKey v

/-- where a record is written -/
structure BarWritten (r : BlindAssetRecord S) (j : Json) : Prop where
  amount : ∀ a, r.amount = .plain a → j.at [n! "amount", n! "NonConfidential"] = some (.str (decimal a.toNat))
  hiddenAmount : ∀ lo hi, r.amount = .conf lo hi → j.at [n! "amount", n! "Confidential"] = some (.arr [.str (b64enc (L.cg lo)), .str (b64enc (L.cg hi))])
  assetType : ∀ t, r.assetType = .plain t →
    j.at [n! "asset_type", n! "NonConfidential"] = some (.arr ((L.at' t).1.map (fun x => .num x.toNat)))
  hiddenType : ∀ c, r.assetType = .conf c → j.at [n! "asset_type", n! "Confidential"] = some (.str (b64enc (L.cg c)))
  owner : j.at [n! "public_key"] = some (.str (b64enc (L.pk r.publicKey)))

variable {L R}

theorem at_one {j v : Json} {n : Bytes} (h : j.at [.name n] = some v) : j.member n = some v := by
  simpa only [Json.at, Option.bind_some, Option.bind_fun_some] using h

theorem at_name {j v : Json} {n : Bytes} {p : List Step} (h : j.at (.name n :: p) = some v) : ∃ k, j.member n = some k ∧ k.at p = some v :=
  Option.bind_eq_some_iff.mp h

theorem at_nth {j v : Json} {i : Nat} {p : List Step} (h : j.at (.nth i :: p) = some v) : ∃ k, j.item i = some k ∧ k.at p = some v :=
  Option.bind_eq_some_iff.mp h

theorem bar_seen {j : Json} {r : BlindAssetRecord S} (h : (jBar L R).de j = .ok r) : BarSeen R r j := by
  obtain ⟨⟨a, t, k, u⟩, hd, e⟩ := Res.bind_eq_ok.mp h
  cases e
  have amt : ∀ v, j.member (ascii! "amount") = some v → (jAmount L R).de v = .ok a := fun v hv => seen_first (by ign) hd hv
  have typ : ∀ v, j.member (ascii! "asset_type") = some v → (jAssetType L R).de v = .ok t := fun v hv =>
    seen_first (by ign) (seen_rest (by ign) hd hv) hv
  have key : ∀ v, j.member (ascii! "public_key") = some v → (jLeaf L.pk R.pk).de v = .ok k := fun v hv =>
    seen_first (by ign) (seen_rest (by ign) (seen_rest (by ign) hd hv) hv) hv
  refine ⟨fun v hv => ?_, fun v hv => ?_, fun v hv => ?_, fun v hv => ?_, fun v hv => leaf_seen (key v (at_one hv))⟩
  · obtain ⟨w, h1, h2⟩ := at_name hv
    have h3 := enum_seen (amt w h1) (at_one h2)
    rw [if_neg (by decide), if_pos (by decide)] at h3
    obtain ⟨x, hx, e⟩ := Res.bind_eq_ok.mp h3
    cases e
    obtain ⟨s, h4, h5⟩ := decimal_seen hx
    exact ⟨s, x, h4, h5, rfl⟩
  · obtain ⟨w, h1, h2⟩ := at_name hv
    have h3 := enum_seen (amt w h1) (at_one h2)
    rw [if_pos (by decide)] at h3
    obtain ⟨p, hp, e⟩ := Res.bind_eq_ok.mp h3
    cases e
    obtain ⟨x, y, h4, h5, h6⟩ := pair_seen hp
    exact ⟨x, y, _, _, h4, leaf_seen h5, leaf_seen h6, rfl⟩
  · obtain ⟨w, h1, h2⟩ := at_name hv
    have h3 := enum_seen (typ w h1) (at_one h2)
    rw [if_neg (by decide), if_pos (by decide)] at h3
    obtain ⟨b, hb, e⟩ := Res.bind_eq_ok.mp h3
    cases e
    obtain ⟨c, hc, e⟩ := Res.bind_eq_ok.mp hb
    simp only at e
    split_ifs at e with hl
    cases e
    exact ⟨⟨c, hl⟩, bytes_seen hc, rfl⟩
  · obtain ⟨w, h1, h2⟩ := at_name hv
    have h3 := enum_seen (typ w h1) (at_one h2)
    rw [if_pos (by decide)] at h3
    obtain ⟨c, hc, e⟩ := Res.bind_eq_ok.mp h3
    cases e
    exact ⟨c, leaf_seen hc, rfl⟩

theorem bar_written (r : BlindAssetRecord S) : BarWritten L r ((jBar L R).ser r) := by
  obtain ⟨a, t, k⟩ := r
  refine ⟨?_, ?_, ?_, ?_, rfl⟩
  · rintro x ⟨⟩; rfl
  · rintro x y ⟨⟩; rfl
  · rintro x ⟨⟩; rfl
  · rintro x ⟨⟩; rfl

end

/-! ### Transfers -/

section
variable {S : Types} (L : Leaves S) (R : Parse S) (sg : S.Sg → Bytes)

/-- the document of a transfer, seen by another program -/
structure XfrSeen (n : XfrNote S) (j : Json) : Prop where
  inputs : ∀ i v, j.at [n! "body", n! "inputs", .nth i] = some v → ∃ r, n.body.inputs[i]? = some r ∧ BarSeen R r v
  inputCount : ∀ v, j.at [n! "body", n! "inputs"] = some v → ∃ l, v = .arr l ∧ l.length = n.body.inputs.length
  outputs : ∀ i v, j.at [n! "body", n! "outputs", .nth i] = some v → ∃ r, n.body.outputs[i]? = some r ∧ BarSeen R r v
  outputCount : ∀ v, j.at [n! "body", n! "outputs"] = some v → ∃ l, v = .arr l ∧ l.length = n.body.outputs.length
  signatures : ∀ i v, j.at [n! "multisig", n! "signatures", .nth i] = some v → ∃ s, n.signatures[i]? = some s ∧ TextOf R.sg s v

/-- where a transfer is written -/
structure XfrWritten (n : XfrNote S) (j : Json) : Prop where
  inputs : ∀ (i : Nat) r, n.body.inputs[i]? = some r → ∃ v, j.at [n! "body", n! "inputs", .nth i] = some v ∧ BarWritten L r v
  outputs : ∀ (i : Nat) r, n.body.outputs[i]? = some r → ∃ v, j.at [n! "body", n! "outputs", .nth i] = some v ∧ BarWritten L r v
  signatures : ∀ (i : Nat) s, n.signatures[i]? = some s → j.at [n! "multisig", n! "signatures", .nth i] = some (.str (b64enc (sg s)))

variable {L R sg}

theorem at_item {j k l v : Json} {n m : Bytes} {i : Nat} (h : j.member n = some k) (h' : k.member m = some l) (hv : l.item i = some v) :
    j.at [.name n, .name m, .nth i] = some v := by
  simp only [Json.at, h, h', Option.bind_some, hv]

theorem parsed {α : Type} {c : Codec α} {t : Bytes} {j : Json} {n : α} (hj : parseJson t = some j) (h : fromJson c t = .ok n) : c.de j = .ok n := by
  unfold fromJson at h
  rwa [hj, Res.ofOption_some, Res.bind_ok] at h

/-- C112: A program that goes by the names of the members finds in any document that the node takes for a transfer only what the node takes from it:
under `body.inputs[i].amount.NonConfidential` the amount of the `i`-th input, and so on.  The document may be made by anyone, and have further members
anywhere. -/
theorem C112_transfer_read (t : Bytes) (j : Json) (hj : parseJson t = some j) (n : XfrNote S)
    (h : fromJson (jXfrNote L R sg (fun _ => newLayout)) t = .ok n) : XfrSeen R n j := by
  obtain ⟨⟨b, ⟨s, u⟩, u'⟩, hd, e⟩ := Res.bind_eq_ok.mp (parsed hj h)
  cases e
  have body : ∀ v, j.member (ascii! "body") = some v → (jXfrBody L R (fun _ => newLayout)).de v = .ok b := fun v hv => seen_first (by ign) hd hv
  have sigs : ∀ v, j.member (ascii! "multisig") = some v → (jMultiSig R sg).de v = .ok (s, u) := fun v hv =>
    seen_first (by ign) (seen_rest (by ign) hd hv) hv
  have inp : ∀ w v, j.member (ascii! "body") = some w → w.member (ascii! "inputs") = some v → (jVec (jBar L R)).de v = .ok b.inputs := by
    intro w v hw hv
    obtain ⟨⟨i, o, ⟨p, ⟨x, y, z, u⟩, u'⟩, m, k, u''⟩, hb, e⟩ := Res.bind_eq_ok.mp (body w hw)
    cases e
    exact seen_first (by ign) hb hv
  have out : ∀ w v, j.member (ascii! "body") = some w → w.member (ascii! "outputs") = some v → (jVec (jBar L R)).de v = .ok b.outputs := by
    intro w v hw hv
    obtain ⟨⟨i, o, ⟨p, ⟨x, y, z, u⟩, u'⟩, m, k, u''⟩, hb, e⟩ := Res.bind_eq_ok.mp (body w hw)
    cases e
    exact seen_first (by ign) (seen_rest (by ign) hb hv) hv
  refine ⟨fun i v hv => ?_, fun v hv => ?_, fun i v hv => ?_, fun v hv => ?_, fun i v hv => ?_⟩
  · obtain ⟨w, h1, h2⟩ := at_name hv
    obtain ⟨x, h3, h4⟩ := at_name h2
    obtain ⟨y, h5, h6⟩ := at_nth h4
    cases h6
    obtain ⟨-, -, -, h7⟩ := vec_seen (inp w x h1 h3)
    obtain ⟨r, h8, h9⟩ := h7 i v h5
    exact ⟨r, h8, bar_seen h9⟩
  · obtain ⟨w, h1, h2⟩ := at_name hv
    obtain ⟨l, h3, h4, -⟩ := vec_seen (inp w v h1 (at_one h2))
    exact ⟨l, h3, h4⟩
  · obtain ⟨w, h1, h2⟩ := at_name hv
    obtain ⟨x, h3, h4⟩ := at_name h2
    obtain ⟨y, h5, h6⟩ := at_nth h4
    cases h6
    obtain ⟨-, -, -, h7⟩ := vec_seen (out w x h1 h3)
    obtain ⟨r, h8, h9⟩ := h7 i v h5
    exact ⟨r, h8, bar_seen h9⟩
  · obtain ⟨w, h1, h2⟩ := at_name hv
    obtain ⟨l, h3, h4, -⟩ := vec_seen (out w v h1 (at_one h2))
    exact ⟨l, h3, h4⟩
  · obtain ⟨w, h1, h2⟩ := at_name hv
    obtain ⟨x, h3, h4⟩ := at_name h2
    obtain ⟨y, h5, h6⟩ := at_nth h4
    cases h6
    obtain ⟨-, -, -, h7⟩ := vec_seen (seen_first (by ign) (sigs w h1) h3)
    obtain ⟨r, h8, h9⟩ := h7 i v h5
    exact ⟨r, h8, leaf_seen h9⟩

/-- C112: and in what the node writes the program finds everything in its place. -/
theorem C112_transfer_written (hR : R.Of L sg) (n : XfrNote S) :
    ∃ j, parseJson (toJson (jXfrNote L R sg (fun _ => newLayout)) n) = some j ∧ XfrWritten L sg n j := by
  refine ⟨_, parseJson_text _ (lt_of_le_of_lt ((good_xfrNote hR newLayout_fits).depth n) (by decide)), ?_⟩
  obtain ⟨⟨i, o, p, x, y, z, m, k⟩, s⟩ := n
  refine ⟨fun a r hr => ⟨(jBar L R).ser r, ?_, bar_written r⟩, fun a r hr => ⟨(jBar L R).ser r, ?_, bar_written r⟩, fun a r hr => ?_⟩
  · exact at_item (l := .arr (i.map (jBar L R).ser)) rfl rfl ((List.getElem?_map ..).trans (by rw [show _ = _ from hr]; rfl))
  · exact at_item (l := .arr (o.map (jBar L R).ser)) rfl rfl ((List.getElem?_map ..).trans (by rw [show _ = _ from hr]; rfl))
  · exact at_item (l := .arr (s.map (jLeaf sg R.sg).ser)) rfl rfl ((List.getElem?_map ..).trans (by rw [show _ = _ from hr]; rfl))

end

/-! ### Anonymous transfers and conversions -/

section
variable {S : Types} {L : Leaves S} {R : Parse S} {sg : S.Sg → Bytes} {K Pf A : Type} {bls : K → Bytes} {pf : Pf → WPlonk}
  {blsR : Bytes → Res K} {pfR : WPlonk → Res Pf} {Q P : SimFr.Params} {pt : S.G → Bytes} {sc : ZMod Q.r → Bytes} {ptR : Bytes → Res S.G}
  {scR : Bytes → Res (ZMod Q.r)} {G Mp : Type} {fpt : G → Bytes} {fsc : ZMod P.r → Bytes} {mul : Mp → Bytes} {fptR : Bytes → Res G}
  {fscR : Bytes → Res (ZMod P.r)} {mulR : Bytes → Res Mp} {apk : A → Bytes} {apkR : Bytes → Res A}

/-- the document of an anonymous transfer, seen by another program -/
structure AXfrSeen (blsR : Bytes → Res K) (apkR : Bytes → Res A) (n : Anon.XfrNote P K A Pf G Mp) (j : Json) : Prop where
  inputs : ∀ i v, j.at [n! "body", n! "inputs", .nth i] = some v → ∃ x, n.body.inputs[i]? = some x ∧ TextOf blsR x v
  inputCount : ∀ v, j.at [n! "body", n! "inputs"] = some v → ∃ l, v = .arr l ∧ l.length = n.body.inputs.length
  outputs : ∀ i v, j.at [n! "body", n! "outputs", .nth i, n! "commitment"] = some v → ∃ x, n.body.outputs[i]? = some x ∧ TextOf blsR x v
  outputCount : ∀ v, j.at [n! "body", n! "outputs"] = some v → ∃ l, v = .arr l ∧ l.length = n.body.outputs.length
  root : ∀ v, j.at [n! "body", n! "merkle_root"] = some v → TextOf blsR n.body.root v
  version : ∀ v, j.at [n! "body", n! "merkle_root_version"] = some v → v = .num n.body.version.toNat
  fee : ∀ v, j.at [n! "body", n! "fee"] = some v → v = .num n.body.fee.toNat
  points : ∀ i v, j.at [n! "body", n! "owner_memos", .nth i, n! "point"] = some v → ∃ m, n.body.memos[i]? = some m ∧ TextOf apkR m.point v
  texts : ∀ i v, j.at [n! "body", n! "owner_memos", .nth i, n! "ctext"] = some v →
    ∃ m, n.body.memos[i]? = some m ∧ v = .arr (m.ctext.map (fun x => .num x.toNat))

theorem abar_seen {j v : Json} {x : K} (h : (jAbar bls blsR).de j = .ok x) (hv : j.member (ascii! "commitment") = some v) : TextOf blsR x v := by
  obtain ⟨⟨c, u⟩, hd, e⟩ := Res.bind_eq_ok.mp h
  cases e
  exact leaf_seen (seen_first (by ign) hd hv)

theorem aMemo_seen {j : Json} {m : Anon.AMemo A} (h : (jAMemo apk apkR).de j = .ok m) :
    (∀ v, j.member (ascii! "point") = some v → TextOf apkR m.point v) ∧
    (∀ v, j.member (ascii! "ctext") = some v → v = .arr (m.ctext.map (fun x => .num x.toNat))) := by
  obtain ⟨⟨c, d, u⟩, hd, e⟩ := Res.bind_eq_ok.mp h
  cases e
  exact ⟨fun v hv => leaf_seen (seen_first (by ign) hd hv), fun v hv => bytes_seen (seen_first (by ign) (seen_rest (by ign) hd hv) hv)⟩

/-- C112: anonymous transfers -/
theorem C112_anonymous_read (t : Bytes) (j : Json) (hj : parseJson t = some j) (n : Anon.XfrNote P K A Pf G Mp)
    (h : fromJson (jAXfrNote bls pf blsR pfR fpt fsc mul fptR fscR mulR apk apkR) t = .ok n) : AXfrSeen blsR apkR n j := by
  obtain ⟨⟨b, p, f, u⟩, hd, e⟩ := Res.bind_eq_ok.mp (parsed hj h)
  cases e
  have body : ∀ v, j.member (ascii! "body") = some v → (jAXfrBody bls blsR apk apkR).de v = .ok b := fun v hv => seen_first (by ign) hd hv
  have all : ∀ w, j.member (ascii! "body") = some w →
      (∀ v, w.member (ascii! "inputs") = some v → (jVec (jLeaf bls blsR)).de v = .ok b.inputs) ∧
      (∀ v, w.member (ascii! "outputs") = some v → (jVec (jAbar bls blsR)).de v = .ok b.outputs) ∧
      (∀ v, w.member (ascii! "merkle_root") = some v → (jLeaf bls blsR).de v = .ok b.root) ∧
      (∀ v, w.member (ascii! "merkle_root_version") = some v → jU64.de v = .ok b.version) ∧
      (∀ v, w.member (ascii! "fee") = some v → jU32.de v = .ok b.fee) ∧
      (∀ v, w.member (ascii! "owner_memos") = some v → (jVec (jAMemo apk apkR)).de v = .ok b.memos) := by
    intro w hw
    obtain ⟨⟨x1, x2, x3, x4, x5, x6, u⟩, hb, e⟩ := Res.bind_eq_ok.mp (body w hw)
    cases e
    refine ⟨fun v hv => ?_, fun v hv => ?_, fun v hv => ?_, fun v hv => ?_, fun v hv => ?_, fun v hv => ?_⟩
    · exact seen_first (by ign) hb hv
    · exact seen_first (by ign) (seen_rest (by ign) hb hv) hv
    · exact seen_first (by ign) (seen_rest (by ign) (seen_rest (by ign) hb hv) hv) hv
    · exact seen_first (by ign) (seen_rest (by ign) (seen_rest (by ign) (seen_rest (by ign) hb hv) hv) hv) hv
    · exact seen_first (by ign) (seen_rest (by ign) (seen_rest (by ign) (seen_rest (by ign) (seen_rest (by ign) hb hv) hv) hv) hv) hv
    · exact seen_first (by ign) (seen_rest (by ign) (seen_rest (by ign) (seen_rest (by ign) (seen_rest (by ign) (seen_rest (by ign) hb hv) hv)
        hv) hv) hv) hv
  refine ⟨fun i v hv => ?_, fun v hv => ?_, fun i v hv => ?_, fun v hv => ?_, fun v hv => ?_, fun v hv => ?_, fun v hv => ?_, fun i v hv => ?_,
    fun i v hv => ?_⟩ <;> obtain ⟨w, h1, h2⟩ := at_name hv <;> obtain ⟨a1, a2, a3, a4, a5, a6⟩ := all w h1
  · obtain ⟨x, h3, h4⟩ := at_name h2
    obtain ⟨y, h5, h6⟩ := at_nth h4
    cases h6
    obtain ⟨-, -, -, h7⟩ := vec_seen (a1 x h3)
    obtain ⟨r, h8, h9⟩ := h7 i v h5
    exact ⟨r, h8, leaf_seen h9⟩
  · obtain ⟨l, h3, h4, -⟩ := vec_seen (a1 v (at_one h2))
    exact ⟨l, h3, h4⟩
  · obtain ⟨x, h3, h4⟩ := at_name h2
    obtain ⟨y, h5, h6⟩ := at_nth h4
    obtain ⟨-, -, -, h7⟩ := vec_seen (a2 x h3)
    obtain ⟨r, h8, h9⟩ := h7 i y h5
    exact ⟨r, h8, abar_seen h9 (at_one h6)⟩
  · obtain ⟨l, h3, h4, -⟩ := vec_seen (a2 v (at_one h2))
    exact ⟨l, h3, h4⟩
  · exact leaf_seen (a3 v (at_one h2))
  · exact u64_seen (a4 v (at_one h2))
  · exact u32_seen (a5 v (at_one h2))
  · obtain ⟨x, h3, h4⟩ := at_name h2
    obtain ⟨y, h5, h6⟩ := at_nth h4
    obtain ⟨-, -, -, h7⟩ := vec_seen (a6 x h3)
    obtain ⟨r, h8, h9⟩ := h7 i y h5
    exact ⟨r, h8, (aMemo_seen h9).1 v (at_one h6)⟩
  · obtain ⟨x, h3, h4⟩ := at_name h2
    obtain ⟨y, h5, h6⟩ := at_nth h4
    obtain ⟨-, -, -, h7⟩ := vec_seen (a6 x h3)
    obtain ⟨r, h8, h9⟩ := h7 i y h5
    exact ⟨r, h8, (aMemo_seen h9).2 v (at_one h6)⟩

/-- where an anonymous transfer is written -/
structure AXfrWritten (bls : K → Bytes) (apk : A → Bytes) (n : Anon.XfrNote P K A Pf G Mp) (j : Json) : Prop where
  inputs : ∀ (i : Nat) x, n.body.inputs[i]? = some x → j.at [n! "body", n! "inputs", .nth i] = some (.str (b64enc (bls x)))
  outputs : ∀ (i : Nat) x, n.body.outputs[i]? = some x → j.at [n! "body", n! "outputs", .nth i, n! "commitment"] = some (.str (b64enc (bls x)))
  root : j.at [n! "body", n! "merkle_root"] = some (.str (b64enc (bls n.body.root)))
  version : j.at [n! "body", n! "merkle_root_version"] = some (.num n.body.version.toNat)
  fee : j.at [n! "body", n! "fee"] = some (.num n.body.fee.toNat)
  memos : ∀ (i : Nat) m, n.body.memos[i]? = some m →
    j.at [n! "body", n! "owner_memos", .nth i, n! "point"] = some (.str (b64enc (apk m.point))) ∧
    j.at [n! "body", n! "owner_memos", .nth i, n! "ctext"] = some (.arr (m.ctext.map (fun x => .num x.toNat)))

theorem at_item_name {j k l v x : Json} {n m o : Bytes} {i : Nat} (h : j.member n = some k) (h' : k.member m = some l) (hv : l.item i = some v)
    (hx : v.member o = some x) : j.at [.name n, .name m, .nth i, .name o] = some x := by
  simp only [Json.at, h, h', Option.bind_some, hv, hx]

/-- C112: anonymous transfers as the node writes them -/
theorem C112_anonymous_written (hb : ∀ x, blsR (bls x) = .ok x) (hp : ∀ x, pfR (pf x) = .ok x) (hft : ∀ x, fptR (fpt x) = .ok x)
    (hfs : ∀ x, fscR (fsc x) = .ok x) (hmul : ∀ x, mulR (mul x) = .ok x) (ha : ∀ x, apkR (apk x) = .ok x) (n : Anon.XfrNote P K A Pf G Mp) :
    ∃ j, parseJson (toJson (jAXfrNote bls pf blsR pfR fpt fsc mul fptR fscR mulR apk apkR) n) = some j ∧ AXfrWritten bls apk n j := by
  refine ⟨_, parseJson_text _ (lt_of_le_of_lt ((good_axfrNote hb hp hft hfs hmul ha).depth n) (by decide)), ?_⟩
  obtain ⟨⟨i, o, r, v, f, m⟩, p, d⟩ := n
  refine ⟨fun a x hx => ?_, fun a x hx => ?_, rfl, rfl, rfl, fun a x hx => ⟨?_, ?_⟩⟩
  · exact at_item (l := .arr (i.map (jLeaf bls blsR).ser)) rfl rfl ((List.getElem?_map ..).trans (by rw [show _ = _ from hx]; rfl))
  · exact at_item_name (l := .arr (o.map (jAbar bls blsR).ser)) rfl rfl ((List.getElem?_map ..).trans (by rw [show _ = _ from hx]; rfl)) rfl
  · exact at_item_name (l := .arr (m.map (jAMemo apk apkR).ser)) rfl rfl ((List.getElem?_map ..).trans (by rw [show _ = _ from hx]; rfl)) rfl
  · exact at_item_name (l := .arr (m.map (jAMemo apk apkR).ser)) rfl rfl ((List.getElem?_map ..).trans (by rw [show _ = _ from hx]; rfl)) rfl

/-- the document of a note that leads into the pool, seen by another program -/
structure DepositSeen (R : Parse S) (blsR : Bytes → Res K) (input : BlindAssetRecord S) (output : K) (memo : Bytes × Bytes) (sig : S.Sg) (j : Json) :
    Prop where
  input : ∀ v, j.at [n! "body", n! "input"] = some v → BarSeen R input v
  output : ∀ v, j.at [n! "body", n! "output", n! "commitment"] = some v → TextOf blsR output v
  point : ∀ v, j.at [n! "body", n! "memo", n! "point"] = some v → TextOf .ok memo.1 v
  text : ∀ v, j.at [n! "body", n! "memo", n! "ctext"] = some v → v = .arr (memo.2.map (fun x => .num x.toNat))
  signature : ∀ v, j.at [n! "signature"] = some v → TextOf R.sg sig v

theorem aMemoBytes_seen {j : Json} {m : Bytes × Bytes} (h : jAMemoBytes.de j = .ok m) :
    (∀ v, j.member (ascii! "point") = some v → TextOf .ok m.1 v) ∧
    (∀ v, j.member (ascii! "ctext") = some v → v = .arr (m.2.map (fun x => .num x.toNat))) := by
  obtain ⟨c, hd, e⟩ := Res.bind_eq_ok.mp h
  cases e
  exact aMemo_seen hd

/-- C112: notes that lead a transparent record into the pool -/
theorem C112_ar_to_abar_read (t : Bytes) (j : Json) (hj : parseJson t = some j) (n : ArToAbarNote S K Pf)
    (h : fromJson (jArToAbarNote L R sg bls pf blsR pfR) t = .ok n) : DepositSeen R blsR n.body.input n.body.output n.body.memo n.signature j := by
  obtain ⟨⟨b, s, u⟩, hd, e⟩ := Res.bind_eq_ok.mp (parsed hj h)
  cases e
  have all : ∀ w, j.member (ascii! "body") = some w →
      (∀ v, w.member (ascii! "input") = some v → (jBar L R).de v = .ok b.input) ∧
      (∀ v, w.member (ascii! "output") = some v → (jAbar bls blsR).de v = .ok b.output) ∧
      (∀ v, w.member (ascii! "memo") = some v → jAMemoBytes.de v = .ok b.memo) := by
    intro w hw
    obtain ⟨⟨x1, x2, x3, x4, u⟩, hb, e⟩ := Res.bind_eq_ok.mp (seen_first (by ign) hd hw)
    cases e
    exact ⟨fun v hv => seen_first (by ign) hb hv, fun v hv => seen_first (by ign) (seen_rest (by ign) hb hv) hv,
      fun v hv => seen_first (by ign) (seen_rest (by ign) (seen_rest (by ign) (seen_rest (by ign) hb hv) hv) hv) hv⟩
  refine ⟨fun v hv => ?_, fun v hv => ?_, fun v hv => ?_, fun v hv => ?_, fun v hv => ?_⟩
  · obtain ⟨w, h1, h2⟩ := at_name hv
    exact bar_seen ((all w h1).1 v (at_one h2))
  · obtain ⟨w, h1, h2⟩ := at_name hv
    obtain ⟨x, h3, h4⟩ := at_name h2
    exact abar_seen ((all w h1).2.1 x h3) (at_one h4)
  · obtain ⟨w, h1, h2⟩ := at_name hv
    obtain ⟨x, h3, h4⟩ := at_name h2
    exact (aMemoBytes_seen ((all w h1).2.2 x h3)).1 v (at_one h4)
  · obtain ⟨w, h1, h2⟩ := at_name hv
    obtain ⟨x, h3, h4⟩ := at_name h2
    exact (aMemoBytes_seen ((all w h1).2.2 x h3)).2 v (at_one h4)
  · exact leaf_seen (seen_first (by ign) (seen_rest (by ign) hd (at_one hv)) (at_one hv))

/-- C112: notes that lead a confidential record into the pool -/
theorem C112_bar_to_abar_read (t : Bytes) (j : Json) (hj : parseJson t = some j) (n : BarToAbarNote S Q K Pf)
    (h : fromJson (jBarToAbarNote L R sg bls pf blsR pfR pt sc ptR scR) t = .ok n) :
    DepositSeen R blsR n.body.input n.body.output n.body.memo n.signature j := by
  obtain ⟨⟨b, s, u⟩, hd, e⟩ := Res.bind_eq_ok.mp (parsed hj h)
  cases e
  have all : ∀ w, j.member (ascii! "body") = some w →
      (∀ v, w.member (ascii! "input") = some v → (jBar L R).de v = .ok b.input) ∧
      (∀ v, w.member (ascii! "output") = some v → (jAbar bls blsR).de v = .ok b.output) ∧
      (∀ v, w.member (ascii! "memo") = some v → jAMemoBytes.de v = .ok b.memo) := by
    intro w hw
    obtain ⟨⟨x1, x2, ⟨x3, x4⟩, x5, u⟩, hb, e⟩ := Res.bind_eq_ok.mp (seen_first (by ign) hd hw)
    cases e
    exact ⟨fun v hv => seen_first (by ign) hb hv, fun v hv => seen_first (by ign) (seen_rest (by ign) hb hv) hv,
      fun v hv => seen_first (by ign) (seen_rest (by ign) (seen_rest (by ign) (seen_rest (by ign) hb hv) hv) hv) hv⟩
  refine ⟨fun v hv => ?_, fun v hv => ?_, fun v hv => ?_, fun v hv => ?_, fun v hv => ?_⟩
  · obtain ⟨w, h1, h2⟩ := at_name hv
    exact bar_seen ((all w h1).1 v (at_one h2))
  · obtain ⟨w, h1, h2⟩ := at_name hv
    obtain ⟨x, h3, h4⟩ := at_name h2
    exact abar_seen ((all w h1).2.1 x h3) (at_one h4)
  · obtain ⟨w, h1, h2⟩ := at_name hv
    obtain ⟨x, h3, h4⟩ := at_name h2
    exact (aMemoBytes_seen ((all w h1).2.2 x h3)).1 v (at_one h4)
  · obtain ⟨w, h1, h2⟩ := at_name hv
    obtain ⟨x, h3, h4⟩ := at_name h2
    exact (aMemoBytes_seen ((all w h1).2.2 x h3)).2 v (at_one h4)
  · exact leaf_seen (seen_first (by ign) (seen_rest (by ign) hd (at_one hv)) (at_one hv))

/-- the document of a note that leads out of the pool, seen by another program -/
structure PaymentSeen (R : Parse S) (blsR : Bytes → Res K) (input : K) (output : BlindAssetRecord S) (root : K) (version : UInt64) (j : Json) :
    Prop where
  input : ∀ v, j.at [n! "body", n! "input"] = some v → TextOf blsR input v
  output : ∀ v, j.at [n! "body", n! "output"] = some v → BarSeen R output v
  root : ∀ v, j.at [n! "body", n! "merkle_root"] = some v → TextOf blsR root v
  version : ∀ v, j.at [n! "body", n! "merkle_root_version"] = some v → v = .num version.toNat

/-- C112: notes that pay out to a transparent record -/
theorem C112_abar_to_ar_read (t : Bytes) (j : Json) (hj : parseJson t = some j) (n : AbarToArNote S P K Pf G Mp × UInt64 × Option S.OM)
    (h : fromJson (jAbarToArNote L R (fun _ => newLayout) bls pf blsR pfR fpt fsc mul fptR fscR mulR) t = .ok n) :
    PaymentSeen R blsR n.1.input n.1.output n.1.root n.2.1 j := by
  obtain ⟨⟨⟨i, o, r, ve, m, u⟩, p, f, u'⟩, hd, e⟩ := Res.bind_eq_ok.mp (parsed hj h)
  cases e
  have body : ∀ v, j.member (ascii! "body") = some v → (jAbarToArBody L R (fun _ => newLayout) bls blsR).de v = .ok (i, o, r, ve, m, u) :=
    fun v hv => seen_first (by ign) hd hv
  refine ⟨fun v hv => ?_, fun v hv => ?_, fun v hv => ?_, fun v hv => ?_⟩ <;> obtain ⟨w, h1, h2⟩ := at_name hv <;>
    have hb := body w h1 <;> unfold jAbarToArBody at hb <;> replace h2 := at_one h2
  · exact leaf_seen (seen_first (by ign) hb h2)
  · exact bar_seen (seen_first (by ign) (seen_rest (by ign) hb h2) h2)
  · exact leaf_seen (seen_first (by ign) (seen_rest (by ign) (seen_rest (by ign) hb h2) h2) h2)
  · have h3 := seen_first (by ign) (seen_rest (by ign) (seen_rest (by ign) (seen_rest (by ign) hb h2) h2) h2) h2
    exact u64_seen h3

/-- C112: notes that pay out to a confidential record -/
theorem C112_abar_to_bar_read (t : Bytes) (j : Json) (hj : parseJson t = some j) (n : AbarToBarNote S P Q K Pf G Mp × UInt64 × Option S.OM)
    (h : fromJson (jAbarToBarNote L R (fun _ => newLayout) bls pf blsR pfR pt sc ptR scR fpt fsc mul fptR fscR mulR) t = .ok n) :
    PaymentSeen R blsR n.1.input n.1.output n.1.root n.2.1 j := by
  obtain ⟨⟨⟨i, o, d, r, ve, m, u⟩, p, f, u'⟩, hd, e⟩ := Res.bind_eq_ok.mp (parsed hj h)
  cases e
  have body : ∀ v, j.member (ascii! "body") = some v →
      (jAbarToBarBody L R (fun _ => newLayout) bls blsR pt sc ptR scR).de v = .ok (i, o, d, r, ve, m, u) := fun v hv => seen_first (by ign) hd hv
  refine ⟨fun v hv => ?_, fun v hv => ?_, fun v hv => ?_, fun v hv => ?_⟩ <;> obtain ⟨w, h1, h2⟩ := at_name hv <;>
    have hb := body w h1 <;> unfold jAbarToBarBody at hb <;> replace h2 := at_one h2
  · exact leaf_seen (seen_first (by ign) hb h2)
  · exact bar_seen (seen_first (by ign) (seen_rest (by ign) hb h2) h2)
  · exact leaf_seen (seen_first (by ign) (seen_rest (by ign) (seen_rest (by ign) (seen_rest (by ign) hb h2) h2) h2) h2)
  · have h3 := seen_first (by ign) (seen_rest (by ign) (seen_rest (by ign) (seen_rest (by ign) (seen_rest (by ign) hb h2) h2) h2) h2) h2
    exact u64_seen h3

/-- C112: and as the node writes them -/
theorem C112_conversions_written (hR : R.Of L sg) (hb : ∀ x, blsR (bls x) = .ok x) (hp : ∀ x, pfR (pf x) = .ok x) (ht : ∀ x, ptR (pt x) = .ok x)
    (hs : ∀ x, scR (sc x) = .ok x) (hft : ∀ x, fptR (fpt x) = .ok x) (hfs : ∀ x, fscR (fsc x) = .ok x) (hmul : ∀ x, mulR (mul x) = .ok x) :
    (∀ n : ArToAbarNote S K Pf, ∃ j v, parseJson (toJson (jArToAbarNote L R sg bls pf blsR pfR) n) = some j ∧
      j.at [n! "body", n! "input"] = some v ∧ BarWritten L n.body.input v ∧
      j.at [n! "body", n! "output", n! "commitment"] = some (.str (b64enc (bls n.body.output))) ∧
      j.at [n! "body", n! "memo", n! "point"] = some (.str (b64enc n.body.memo.1)) ∧
      j.at [n! "body", n! "memo", n! "ctext"] = some (.arr (n.body.memo.2.map (fun x => .num x.toNat))) ∧
      j.at [n! "signature"] = some (.str (b64enc (sg n.signature)))) ∧
    (∀ n : BarToAbarNote S Q K Pf, ∃ j v, parseJson (toJson (jBarToAbarNote L R sg bls pf blsR pfR pt sc ptR scR) n) = some j ∧
      j.at [n! "body", n! "input"] = some v ∧ BarWritten L n.body.input v ∧
      j.at [n! "body", n! "output", n! "commitment"] = some (.str (b64enc (bls n.body.output))) ∧
      j.at [n! "body", n! "memo", n! "point"] = some (.str (b64enc n.body.memo.1)) ∧
      j.at [n! "body", n! "memo", n! "ctext"] = some (.arr (n.body.memo.2.map (fun x => .num x.toNat))) ∧
      j.at [n! "signature"] = some (.str (b64enc (sg n.signature)))) ∧
    (∀ n : AbarToArNote S P K Pf G Mp × UInt64 × Option S.OM, ∃ j v,
      parseJson (toJson (jAbarToArNote L R (fun _ => newLayout) bls pf blsR pfR fpt fsc mul fptR fscR mulR) n) = some j ∧
      j.at [n! "body", n! "output"] = some v ∧ BarWritten L n.1.output v ∧ j.at [n! "body", n! "input"] = some (.str (b64enc (bls n.1.input))) ∧
      j.at [n! "body", n! "merkle_root"] = some (.str (b64enc (bls n.1.root))) ∧
      j.at [n! "body", n! "merkle_root_version"] = some (.num n.2.1.toNat)) ∧
    (∀ n : AbarToBarNote S P Q K Pf G Mp × UInt64 × Option S.OM, ∃ j v,
      parseJson (toJson (jAbarToBarNote L R (fun _ => newLayout) bls pf blsR pfR pt sc ptR scR fpt fsc mul fptR fscR mulR) n) = some j ∧
      j.at [n! "body", n! "output"] = some v ∧ BarWritten L n.1.output v ∧ j.at [n! "body", n! "input"] = some (.str (b64enc (bls n.1.input))) ∧
      j.at [n! "body", n! "merkle_root"] = some (.str (b64enc (bls n.1.root))) ∧
      j.at [n! "body", n! "merkle_root_version"] = some (.num n.2.1.toNat)) := by
  refine ⟨fun n => ?_, fun n => ?_, fun n => ?_, fun n => ?_⟩
  · exact ⟨_, (jBar L R).ser n.body.input, parseJson_text _ (lt_of_le_of_lt ((good_arToAbarNote hR hb hp).depth n) (by decide)), rfl,
      bar_written _, rfl, rfl, rfl, rfl⟩
  · exact ⟨_, (jBar L R).ser n.body.input, parseJson_text _ (lt_of_le_of_lt ((good_barToAbarNote hR hb hp ht hs).depth n) (by decide)), rfl,
      bar_written _, rfl, rfl, rfl, rfl⟩
  · exact ⟨_, (jBar L R).ser n.1.output, parseJson_text _ (lt_of_le_of_lt ((good_abarToArNote hR newLayout_fits hb hp hft hfs hmul).depth n)
      (by decide)), rfl, bar_written _, rfl, rfl, rfl⟩
  · exact ⟨_, (jBar L R).ser n.1.output, parseJson_text _ (lt_of_le_of_lt ((good_abarToBarNote hR newLayout_fits hb hp ht hs hft hfs hmul).depth n)
      (by decide)), rfl, bar_written _, rfl, rfl, rfl⟩

end

end Verif.Serde
