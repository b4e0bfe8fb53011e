import Verif.Anon.XfrNoteProps

/-!
C84: `init_anon_xfr_note` accepts exactly the transfers that meet its checks and never panics; the notes made from them are
accepted when the asset types of the two sides match up, and cannot be accepted when no input has the fee type.
-/

namespace Verif.Anon

open Verif.Plonk Verif.Plonk.Spec Verif.SimFr Verif.SimFr.Spec Verif.StateComm Verif.Anon.Spec
open Verif.DelegatedSchnorr (Tr Msg)

namespace Spec

/-- the position of an input; `MTLeafInfo::default` (structs.rs:69-78) when there is none -/
def info {F AT K : Type} [Zero F] (o : OpenAbarAt F AT K) : LeafInfo F := o.leaf.getD ⟨[], 0, 0, 0⟩

/-- What a caller of `init_anon_xfr_note` has to provide: inputs and outputs, positions and the key of the inputs under one
root, memos of the outputs, and for every asset type that occurs the same total on both sides, plus the fee. -/
structure Fit {F AT K : Type} [Zero F] [DecidableEq AT] (feeType : AT) (ins outs : List (OpenAbarAt F AT K)) (fee : UInt32) (kp : AKeyPair K) :
    Prop where
  insNe : ins ≠ []
  outsNe : outs ≠ []
  own : ∀ i ∈ ins, i.leaf.isSome ∧ i.pub = kp.pub
  totals : ∀ t, (∃ r ∈ ins ++ outs, r.ty = t) → heldTotal t (ins.map (·.held)) =
    heldTotal t (outs.map (·.held)) + if t = feeType then fee.toNat else 0
  roots : ∀ i ∈ ins, ∀ j ∈ ins, (info i).root = (info j).root
  memos : ∀ o ∈ outs, o.memo.isSome

end Spec

section
variable {F AT Ep K : Type} [Field F] [ScalarRepr F] [DecidableEq F] [DecidableEq AT] [DecidableEq K] [AddCommGroup Ep] [AddCommGroup K]
variable (p : Rescue.Params F) (X : AnonExt F AT Ep K)

/-- the payer that an input stands for -/
def AnonExt.payerOf (i : OpenAbarAt F AT K) : Payer F :=
  ⟨((info i).uid.toNat : F), (i.amount.toNat : F), X.asScalar i.ty, i.blind, (info i).path⟩

/-- the words of a key -/
def AnonExt.words (k : K) : PK F := pkWords (X.coord k).1 (X.coord k).2

/-- the payee that an output stands for -/
def AnonExt.payeeFor (o : OpenAbarAt F AT K) : Payee F := ⟨(o.amount.toNat : F), o.blind, X.asScalar o.ty, X.words o.pub⟩

theorem mapM_res {α β : Type} (f : α → Res β) (g : α → β) : ∀ l : List α, (∀ x ∈ l, f x = .ok (g x)) → l.mapM f = .ok (l.map g) := by
  intro l
  induction l with
  | nil => exact fun _ => rfl
  | cons a l ih =>
    intro h
    rw [List.mapM_cons, h a (by simp), Res.bind_ok, ih (fun x hx => h x (by simp [hx])), Res.bind_ok]
    rfl

theorem mapM_memo_ok {α β : Type} (f : α → Option β) : ∀ l : List α, (∀ x ∈ l, (f x).isSome) →
    l.mapM (fun x => Res.ofOption (f x)) = .ok (l.filterMap f) := by
  intro l
  induction l with
  | nil => exact fun _ => rfl
  | cons a l ih =>
    intro h
    obtain ⟨b, hb⟩ := Option.isSome_iff_exists.mp (h a (by simp))
    rw [List.mapM_cons, hb, Res.ofOption_some, Res.bind_ok, ih (fun x hx => h x (by simp [hx])), Res.bind_ok, List.filterMap_cons, hb]
    rfl

theorem mapM_memo_err {α β : Type} (f : α → Option β) : ∀ l : List α, (¬ ∀ x ∈ l, (f x).isSome) →
    l.mapM (fun x => Res.ofOption (f x)) = .err := by
  intro l
  induction l with
  | nil => simp
  | cons a l ih =>
    intro h
    rw [List.mapM_cons]
    cases hb : f a with
    | none => rfl
    | some b =>
      rw [Res.ofOption_some, Res.bind_ok, ih (fun h' => h (by
        intro x hx
        rcases List.mem_cons.mp hx with rfl | hx
        · rw [hb]; rfl
        · exact h' x hx))]
      rfl

omit [Field F] [DecidableEq F] [ScalarRepr F] [DecidableEq AT] [AddCommGroup K] in
theorem checkInputs_iff (ins : List (OpenAbarAt F AT K)) (kp : AKeyPair K) :
    checkInputs ins kp = true ↔ ∀ i ∈ ins, i.leaf.isSome ∧ i.pub = kp.pub := by
  unfold checkInputs
  rw [List.all_eq_true]
  refine forall₂_congr fun i _ => ?_
  cases i.leaf <;> simp [eq_comm]

omit [ScalarRepr F] [DecidableEq AT] [DecidableEq K] [AddCommGroup K] in
theorem checkRoots_ok (ins : List (OpenAbarAt F AT K)) (hne : ins ≠ []) (hl : ∀ i ∈ ins, i.leaf.isSome)
    (hr : ∀ i ∈ ins, ∀ j ∈ ins, (info i).root = (info j).root) : checkRoots ins = .ok () := by
  cases ins with
  | nil => exact absurd rfl hne
  | cons i rest =>
    obtain ⟨l, hli⟩ := Option.isSome_iff_exists.mp (hl i (by simp))
    unfold checkRoots
    simp only [hli, Res.ofOption_some, Res.bind_ok]
    have h : ∀ j ∈ rest, j.leaf.isSome ∧ (info j).root = l.root := fun j hj =>
      ⟨hl j (by simp [hj]), by rw [hr j (by simp [hj]) i (by simp)]; simp [info, hli]⟩
    clear hr hl hne
    induction rest with
    | nil => rfl
    | cons j rest ih =>
      obtain ⟨h1, h2⟩ := h j (by simp)
      obtain ⟨l', hlj⟩ := Option.isSome_iff_exists.mp h1
      have h2' : l'.root = l.root := by simpa [info, hlj] using h2
      rw [List.foldlM_cons, hlj, Res.ofOption_some, Res.bind_ok, if_neg (by simp [h2']), Res.bind_ok]
      exact ih fun k hk => h k (by simp [hk])

omit [ScalarRepr F] [DecidableEq AT] [DecidableEq K] [AddCommGroup K] in
theorem checkRoots_err (ins : List (OpenAbarAt F AT K)) (hne : ins ≠ []) (hl : ∀ i ∈ ins, i.leaf.isSome)
    (hr : ¬ ∀ i ∈ ins, ∀ j ∈ ins, (info i).root = (info j).root) : checkRoots ins = .err := by
  cases ins with
  | nil => exact absurd rfl hne
  | cons i rest =>
    obtain ⟨l, hli⟩ := Option.isSome_iff_exists.mp (hl i (by simp))
    unfold checkRoots
    simp only [hli, Res.ofOption_some, Res.bind_ok]
    have h : ¬ ∀ j ∈ rest, (info j).root = l.root := fun h => hr (by
      have h' : ∀ j ∈ i :: rest, (info j).root = l.root := by
        intro j hj
        rcases List.mem_cons.mp hj with rfl | hj
        · simp [info, hli]
        · exact h j hj
      intro a ha b hb
      rw [h' a ha, h' b hb])
    have hl' : ∀ j ∈ rest, j.leaf.isSome := fun j hj => hl j (by simp [hj])
    clear hr hl hne
    induction rest with
    | nil => simp at h
    | cons j rest ih =>
      obtain ⟨l', hlj⟩ := Option.isSome_iff_exists.mp (hl' j (by simp))
      rw [List.foldlM_cons, hlj, Res.ofOption_some, Res.bind_ok]
      by_cases he : l'.root = l.root
      · rw [if_neg (by simp [he]), Res.bind_ok]
        exact ih (fun h' => h (by
          intro k hk
          rcases List.mem_cons.mp hk with rfl | hk
          · simpa [info, hlj] using he
          · exact h' k hk)) (fun k hk => hl' k (by simp [hk]))
      · rw [if_pos he]
        rfl

omit [Field F] [DecidableEq F] [ScalarRepr F] [DecidableEq K] [AddCommGroup K] in
theorem checkAmounts_fit (feeType : AT) (ins outs : List (OpenAbarAt F AT K)) (fee : Nat) :
    checkAmounts feeType (ins.map (·.held)) (outs.map (·.held)) fee = true ↔
      ∀ t, (∃ r ∈ ins ++ outs, r.ty = t) → heldTotal t (ins.map (·.held)) =
        heldTotal t (outs.map (·.held)) + if t = feeType then fee else 0 := by
  rw [C52_accepts_iff]
  refine forall_congr' fun t => ?_
  have : (t ∈ (ins.map (·.held)).map (·.ty) ∨ t ∈ (outs.map (·.held)).map (·.ty)) ↔ ∃ r ∈ ins ++ outs, r.ty = t := by
    simp only [List.map_map, List.mem_map, Function.comp_apply, OpenAbarAt.held, List.mem_append]
    constructor
    · rintro (⟨r, h, e⟩ | ⟨r, h, e⟩)
      · exact ⟨r, .inl h, e⟩
      · exact ⟨r, .inr h, e⟩
    · rintro ⟨r, h | h, e⟩
      · exact .inl ⟨r, h, e⟩
      · exact .inr ⟨r, h, e⟩
  rw [this]

omit [DecidableEq AT] [DecidableEq F] [DecidableEq K] in
theorem nullifier_eq (kp : AKeyPair K) (hx : (X.coord kp.pub).1 < 2 ^ 256) (hy : (X.coord kp.pub).2 < 2 ^ 256) (hs : kp.sec < 2 ^ 256)
    (amount : UInt64) (ty : AT) (uid : UInt64) :
    X.nullifier p kp amount ty uid = some (nullify p (X.words kp.pub) (skWords kp.sec) (uid.toNat : F) (amount.toNat : F) (X.asScalar ty)) := by
  unfold AnonExt.nullifier AnonExt.words
  rw [C72_public_scalars X kp.pub hx hy, C72_secret_scalars kp.sec hs]
  rfl

/-- C84: `init_anon_xfr_note` succeeds for every transfer that fits, with the body and the witness that the records stand
for. -/
theorem C84_init_accepts (feeType : AT) (ins outs : List (OpenAbarAt F AT K)) (fee : UInt32) (kp : AKeyPair K)
    (hco : ∀ k, (X.coord k).1 < 2 ^ 256 ∧ (X.coord k).2 < 2 ^ 256) (hs : kp.sec < 2 ^ 256) (hf : Fit feeType ins outs fee kp)
    (first : OpenAbarAt F AT K) (hfirst : ins.head? = some first) :
    X.initXfr p feeType ins outs fee kp = .ok
      ⟨⟨ins.map (fun i => nullify p (X.words kp.pub) (skWords kp.sec) ((info i).uid.toNat : F) (i.amount.toNat : F) (X.asScalar i.ty)),
          outs.map (fun o => commit p (X.words o.pub) o.blind (o.amount.toNat : F) (X.asScalar o.ty)),
          (info first).root, (info first).version, fee, outs.filterMap (·.memo)⟩,
        ins.map X.payerOf, outs.map (fun o => ((o.amount.toNat : F), o.blind, X.asScalar o.ty, o.pub)), fee, kp⟩ := by
  obtain ⟨h1, h2, h3, h4, h5, h6⟩ := hf
  unfold AnonExt.initXfr
  rw [if_neg (by simp [h1, h2]), if_neg (by simp [(checkInputs_iff ins kp).mpr h3]),
    if_neg (by simp [(checkAmounts_fit feeType ins outs fee.toNat).mpr h4]), checkRoots_ok ins h1 (fun i hi => (h3 i hi).1) h5, Res.bind_ok]
  rw [mapM_res _ (fun i => (nullify p (X.words kp.pub) (skWords kp.sec) ((info i).uid.toNat : F) (i.amount.toNat : F) (X.asScalar i.ty),
    X.payerOf i)) ins (by
      intro i hi
      obtain ⟨l, hl⟩ := Option.isSome_iff_exists.mp (h3 i hi).1
      unfold AnonExt.xfrInput AnonExt.payerOf
      simp only [hl, Res.unwrap_some, Res.bind_ok, nullifier_eq p X kp (hco _).1 (hco _).2 hs, Res.pure_eq, info, Option.getD_some])]
  rw [Res.bind_ok, mapM_res _ (fun o => (commit p (X.words o.pub) o.blind (o.amount.toNat : F) (X.asScalar o.ty),
    ((o.amount.toNat : F), o.blind, X.asScalar o.ty, o.pub))) outs (by
      intro o _
      unfold AnonExt.xfrOutput AnonExt.commitment AnonExt.words
      rw [C72_public_scalars X o.pub (hco _).1 (hco _).2]
      rfl)]
  obtain ⟨l, hl⟩ := Option.isSome_iff_exists.mp (h3 first (List.mem_of_mem_head? hfirst)).1
  simp only [Res.bind_ok, hfirst, Option.bind_some, hl, Res.unwrap_some, mapM_memo_ok _ outs h6, List.map_map, Res.pure_eq, info,
    Option.getD_some, Function.comp_def]

/-- C84: `init_anon_xfr_note` rejects every other transfer with an error: it never panics. -/
theorem C84_init_rejects (feeType : AT) (ins outs : List (OpenAbarAt F AT K)) (fee : UInt32) (kp : AKeyPair K)
    (hco : ∀ k, (X.coord k).1 < 2 ^ 256 ∧ (X.coord k).2 < 2 ^ 256) (hs : kp.sec < 2 ^ 256) (hf : ¬ Fit feeType ins outs fee kp) :
    X.initXfr p feeType ins outs fee kp = .err := by
  unfold AnonExt.initXfr
  by_cases h12 : (ins.isEmpty || outs.isEmpty) = true
  · rw [if_pos h12]
  rw [if_neg h12]
  simp only [Bool.or_eq_true, List.isEmpty_iff, not_or] at h12
  by_cases h3 : checkInputs ins kp = true
  swap
  · rw [if_pos (by simpa using h3)]
  rw [if_neg (by simpa using h3)]
  rw [checkInputs_iff] at h3
  by_cases h4 : checkAmounts feeType (ins.map (·.held)) (outs.map (·.held)) fee.toNat = true
  swap
  · rw [if_pos (by simpa using h4)]
  rw [if_neg (by simpa using h4)]
  rw [checkAmounts_fit] at h4
  by_cases h5 : ∀ i ∈ ins, ∀ j ∈ ins, (info i).root = (info j).root
  swap
  · rw [checkRoots_err ins h12.1 (fun i hi => (h3 i hi).1) h5]
    rfl
  rw [checkRoots_ok ins h12.1 (fun i hi => (h3 i hi).1) h5, Res.bind_ok]
  have h6 : ¬ ∀ o ∈ outs, o.memo.isSome := fun h6 => hf ⟨h12.1, h12.2, h3, h4, h5, h6⟩
  rw [mapM_res _ (fun i => (nullify p (X.words kp.pub) (skWords kp.sec) ((info i).uid.toNat : F) (i.amount.toNat : F) (X.asScalar i.ty),
    X.payerOf i)) ins (by
      intro i hi
      obtain ⟨l, hl⟩ := Option.isSome_iff_exists.mp (h3 i hi).1
      unfold AnonExt.xfrInput AnonExt.payerOf
      simp only [hl, Res.unwrap_some, Res.bind_ok, nullifier_eq p X kp (hco _).1 (hco _).2 hs, Res.pure_eq, info, Option.getD_some])]
  rw [Res.bind_ok, mapM_res _ (fun o => (commit p (X.words o.pub) o.blind (o.amount.toNat : F) (X.asScalar o.ty),
    ((o.amount.toNat : F), o.blind, X.asScalar o.ty, o.pub))) outs (by
      intro o _
      unfold AnonExt.xfrOutput AnonExt.commitment AnonExt.words
      rw [C72_public_scalars X o.pub (hco _).1 (hco _).2]
      rfl)]
  obtain ⟨i, rest, rfl⟩ := List.exists_cons_of_ne_nil h12.1
  obtain ⟨l, hl⟩ := Option.isSome_iff_exists.mp (h3 i (by simp)).1
  simp only [Res.bind_ok, List.head?_cons, Option.bind_some, hl, Res.unwrap_some, mapM_memo_err _ outs h6]
  rfl

/-! ### The records of a fitting transfer balance in the circuit -/

omit [Field F] [DecidableEq F] [ScalarRepr F] [DecidableEq K] [AddCommGroup Ep] [AddCommGroup K] in
/-- sums over scalars of types are sums over types -/
theorem total_scalar [DecidableEq F] {σ : Type} (f : OpenAbarAt F AT K → σ) (ty : σ → F) (val : σ → Nat) (X : AnonExt F AT Ep K)
    (hty : ∀ o, ty (f o) = X.asScalar o.ty) (l : List (OpenAbarAt F AT K)) (hval : ∀ o ∈ l, val (f o) = o.amount.toNat)
    (t : AT) (hinj : ∀ o ∈ l, X.asScalar o.ty = X.asScalar t → o.ty = t) :
    (((l.map f).filter (fun s => ty s = X.asScalar t)).map val).sum = heldTotal t (l.map (·.held)) := by
  unfold heldTotal
  induction l with
  | nil => rfl
  | cons o l ih =>
    have ih := ih (fun o' h => hval o' (by simp [h])) (fun o' h => hinj o' (by simp [h]))
    by_cases h : o.ty = t
    · simp only [List.map_cons, List.filter_cons, hty, h, decide_true, if_true, List.sum_cons, ih, OpenAbarAt.held, hval o (by simp)]
    · have h' : X.asScalar o.ty ≠ X.asScalar t := fun e => h (hinj o (by simp) e)
      simp only [List.map_cons, List.filter_cons, hty, h, h', decide_false, Bool.false_eq_true, if_false, ih, OpenAbarAt.held]

omit [DecidableEq K] [AddCommGroup Ep] [AddCommGroup K] in
/-- C84: the totals of `init_anon_xfr_note` are the balance the circuit asks for, when the fee type is among the inputs, the
types of the two sides match up and the types that occur have different scalars. -/
theorem balanced_of_fit (ho : 2 ^ 64 ≤ ScalarRepr.order F) (feeType : AT) (ins outs : List (OpenAbarAt F AT K)) (fee : UInt32)
    (htot : ∀ t, (∃ r ∈ ins ++ outs, r.ty = t) → heldTotal t (ins.map (·.held)) =
      heldTotal t (outs.map (·.held)) + if t = feeType then fee.toNat else 0)
    (hfee : ∃ i ∈ ins, i.ty = feeType) (hin : ∀ i ∈ ins, i.ty ≠ feeType → ∃ o ∈ outs, o.ty = i.ty)
    (hout : ∀ o ∈ outs, ∃ i ∈ ins, i.ty = o.ty)
    (hinj : ∀ i ∈ ins, ∀ j ∈ ins, X.asScalar i.ty = X.asScalar j.ty → i.ty = j.ty) :
    Balanced (ins.map X.payerOf) (outs.map X.payeeFor) (X.asScalar feeType) (fee.toNat : F) := by
  have hval : ∀ n : Nat, n < 2 ^ 64 → ScalarRepr.val (n : F) = n := fun n h => ScalarRepr.val_cast n (by omega)
  obtain ⟨i0, hi0, rfl⟩ := hfee
  refine ⟨⟨X.payerOf i0, List.mem_map.mpr ⟨i0, hi0, rfl⟩, rfl⟩, ?_, ?_, ?_⟩
  · intro t ht
    obtain ⟨o, ho, rfl⟩ := List.mem_map.mp ht
    obtain ⟨i, hi, e⟩ := hout o ho
    exact ⟨X.payerOf i, List.mem_map.mpr ⟨i, hi, rfl⟩, by simp [AnonExt.payerOf, AnonExt.payeeFor, e]⟩
  · intro s hs hne
    obtain ⟨i, hi, rfl⟩ := List.mem_map.mp hs
    obtain ⟨o, ho, e⟩ := hin i hi (fun e => hne (by simp [AnonExt.payerOf, e]))
    exact ⟨X.payeeFor o, List.mem_map.mpr ⟨o, ho, rfl⟩, by simp [AnonExt.payerOf, AnonExt.payeeFor, e]⟩
  · intro t
    have hfv : ScalarRepr.val (fee.toNat : F) = fee.toNat := hval _ (by
      have := fee.toNat_lt
      omega)
    rw [hfv]
    by_cases hex : ∃ i ∈ ins, X.asScalar i.ty = t
    · obtain ⟨i, hi, rfl⟩ := hex
      have e1 := total_scalar X.payerOf (fun s => s.ty) (fun s => ScalarRepr.val s.amount) X (fun _ => rfl) ins
        (fun o _ => hval _ o.amount.toNat_lt) i.ty (fun j hj e => hinj j hj i hi e)
      have e2 := total_scalar X.payeeFor (fun s => s.ty) (fun s => ScalarRepr.val s.amount) X (fun _ => rfl) outs
        (fun o _ => hval _ o.amount.toNat_lt) i.ty (fun o ho' e => by
          obtain ⟨j, hj, ej⟩ := hout o ho'
          rw [← ej] at e ⊢
          exact hinj j hj i hi e)
      rw [e1, e2, htot i.ty ⟨i, by simp [hi], rfl⟩]
      by_cases h : i.ty = i0.ty
      · rw [if_pos h, if_pos (by rw [h])]
      · rw [if_neg h, if_neg (fun e => h (hinj i hi i0 hi0 e))]
    · push Not at hex
      have e1 : (ins.map X.payerOf).filter (fun s => s.ty = t) = [] := by
        rw [List.filter_eq_nil_iff]
        intro s hs
        obtain ⟨i, hi, rfl⟩ := List.mem_map.mp hs
        rw [decide_eq_true_eq]
        exact hex i hi
      have e2 : (outs.map X.payeeFor).filter (fun s => s.ty = t) = [] := by
        rw [List.filter_eq_nil_iff]
        intro s hs
        obtain ⟨o, ho', rfl⟩ := List.mem_map.mp hs
        obtain ⟨j, hj, ej⟩ := hout o ho'
        have := hex j hj
        rw [ej] at this
        rw [decide_eq_true_eq]
        exact this
      rw [e1, e2, if_neg (fun e => hex i0 hi0 e.symm)]
      rfl

omit [Field F] [ScalarRepr F] [DecidableEq F] [DecidableEq K] [AddCommGroup K] in
/-- C84: between records of positive amounts the types of the two sides always match up. -/
theorem C84_positive_types (feeType : AT) (ins outs : List (OpenAbarAt F AT K)) (fee : UInt32)
    (htot : ∀ t, (∃ r ∈ ins ++ outs, r.ty = t) → heldTotal t (ins.map (·.held)) =
      heldTotal t (outs.map (·.held)) + if t = feeType then fee.toNat else 0)
    (hpos : ∀ r ∈ ins ++ outs, 0 < r.amount.toNat) :
    (∀ i ∈ ins, i.ty ≠ feeType → ∃ o ∈ outs, o.ty = i.ty) ∧ ∀ o ∈ outs, ∃ i ∈ ins, i.ty = o.ty := by
  have hge : ∀ (l : List (OpenAbarAt F AT K)) (r : OpenAbarAt F AT K), r ∈ l → r.amount.toNat ≤ heldTotal r.ty (l.map (·.held)) := by
    intro l r hr
    unfold heldTotal
    exact List.single_le_sum (by simp) _ (List.mem_map.mpr ⟨r.held, List.mem_filter.mpr ⟨List.mem_map.mpr ⟨r, hr, rfl⟩, by
      simp [OpenAbarAt.held]⟩, rfl⟩)
  have hzero : ∀ (l : List (OpenAbarAt F AT K)) (t : AT), (∀ r ∈ l, r.ty ≠ t) → heldTotal t (l.map (·.held)) = 0 := by
    intro l t h
    refine heldTotal_of_not_mem t _ ?_
    simp only [List.map_map, List.mem_map, Function.comp_apply, not_exists, not_and]
    exact fun r hr => h r hr
  refine ⟨fun i hi hne => ?_, fun o ho => ?_⟩
  · by_contra hno
    push Not at hno
    have h1 := htot i.ty ⟨i, by simp [hi], rfl⟩
    rw [hzero outs i.ty hno, if_neg hne] at h1
    have := hge ins i hi
    have := hpos i (by simp [hi])
    omega
  · by_contra hno
    push Not at hno
    have h1 := htot o.ty ⟨o, by simp [ho], rfl⟩
    rw [hzero ins o.ty hno] at h1
    have := hge outs o ho
    have := hpos o (by simp [ho])
    omega

variable {P : SimFr.Params} {Par Pf G Hs Mp : Type} [Fact P.r.Prime] [AddCommGroup G] [DecidableEq G] [Module (ZMod P.r) G]

/-- the note that is made is the one for the proof of a satisfied system with the gates of the keys -/
theorem transfer_reduces (hp : GoodParams p) (ho : 2 ^ 64 ≤ ScalarRepr.order F) (dbg : Bool) (hP : FoldOk P F) (hbits : P.bits ≤ 254)
    (modulus : Bytes) (hm : modulus.length = 32) (Y : FoldExt P F G Hs Mp)
    (M : FoldProver P F G Hs Mp) (wit : FoldWitness P F) (hwit : wit.Consistent) (payers' : List (Payer F))
    (payees' : List (Payee F)) (pk' : PK F) (sk' : SK F) (fee' : F) (feeType : AT) (vars : XfrVars FoldVars) (cs : CS F)
    (hb : buildMultiXfr p (foldingCircuit p dbg P modulus wit) payers' payees' pk' sk' fee' (X.asScalar feeType) CS.new = some (vars, cs))
    (ins outs : List (OpenAbarAt F AT K)) (fee : UInt32) (kp : AKeyPair K)
    (hco : ∀ k, (X.coord k).1 < 2 ^ 256 ∧ (X.coord k).2 < 2 ^ 256) (hs : kp.sec < 2 ^ 256)
    (hk : (X.coord kp.pub).1 < P.r ∧ (X.coord kp.pub).2 < P.r ∧ kp.sec < P.r ∧ kp.sec < ofLE modulus)
    (hf : Fit feeType ins outs fee kp) (root : F)
    (hroot : ∀ i ∈ ins, (info i).root = root ∧ (∀ n ∈ (info i).path, GoodNode n) ∧ payerRoot p (X.words kp.pub) (X.payerOf i) = root)
    (hfee : ∃ i ∈ ins, i.ty = feeType) (hin : ∀ i ∈ ins, i.ty ≠ feeType → ∃ o ∈ outs, o.ty = i.ty)
    (hout : ∀ o ∈ outs, ∃ i ∈ ins, i.ty = o.ty)
    (hinj : ∀ i ∈ ins, ∀ j ∈ ins, X.asScalar i.ty = X.asScalar j.ty → i.ty = j.ty)
    (hl : payers'.map (fun s => s.path.length) = ins.map (fun i => (info i).path.length)) (hl' : payees'.length = outs.length)
    (h : Hs) (hM : M.Complete Y xfrFoldLabel h (X.foldKey kp)) (rand : List (ZMod P.r × ZMod P.r)) (hr : rand.length = 3) (r : F) :
    ∃ pre, X.initXfr p feeType ins outs fee kp = .ok pre ∧
    ∃ cs' : CS F, cs'.shape = cs.shape ∧ (∃ w vars, buildMultiXfr p (foldingCircuit p dbg P modulus w) (ins.map X.payerOf)
      (outs.map X.payeeFor) (X.words kp.pub) (skWords kp.sec) (fee.toNat : F) (X.asScalar feeType) CS.new = some (vars, cs')) ∧ cs'.value 1 = 1 ∧ Sat cs' cs'.value cs'.online ∧
      ∀ (Par Pf : Type) (V : XfrProver F Par Pf) (E : XfrExt F Par Pf) (par : Par),
      (V.prove par (xfrTranscript ins.length outs.length) cs'.witness = .panic →
        X.finishXfr p V Y M dbg modulus feeType par pre h rand r = .panic) ∧
      ∀ proof, V.prove par (xfrTranscript ins.length outs.length) cs'.witness = .ok proof →
        E.plonk par (xfrTranscript ins.length outs.length) cs'.online proof = true →
    ∃ note, X.finishXfr p V Y M dbg modulus feeType par pre h rand r = .ok note ∧ E.verifyNote Y par note root h = .ok () ∧
      note.body.inputs = ins.map (fun i => nullify p (X.words kp.pub) (skWords kp.sec) ((info i).uid.toNat : F) (i.amount.toNat : F) (X.asScalar i.ty)) ∧
      note.body.outputs = outs.map (fun o => commit p (X.words o.pub) o.blind (o.amount.toNat : F) (X.asScalar o.ty)) ∧
      note.body.fee = fee ∧ note.body.memos = outs.filterMap (·.memo) := by
  obtain ⟨first, rest, rfl⟩ := List.exists_cons_of_ne_nil hf.insNe
  have hinit := C84_init_accepts p X feeType (first :: rest) outs fee kp hco hs hf first rfl
  generalize hins : first :: rest = ins at *
  have hfm : first ∈ ins := by simp [← hins]
  obtain ⟨inst, w, c1, c2, c3, c4, c5, c6, c7, c8⟩ := folding_honest p P hP hbits Y M xfrFoldLabel h (X.foldKey kp) hM (ofLE modulus) hk rand hr r
  have ew : pkWords w.x w.y = (X.words kp.pub : PK F) := by rw [c3, c4]; rfl
  have es : skWords w.s = (skWords kp.sec : SK F) := by rw [c5]; rfl
  have hval : ∀ n : UInt64, ScalarRepr.val (n.toNat : F) < 2 ^ 64 := fun n => by
    rw [ScalarRepr.val_cast n.toNat (by have := n.toNat_lt; omega)]
    exact n.toNat_lt
  obtain ⟨vars', cs', pubs, foldPub, h1, h2, h3, h4, h5, h6⟩ := C67_transfer_folding_complete p hp dbg P hP modulus hm w c2 (ins.map X.payerOf)
    (outs.map X.payeeFor) (fee.toNat : F) (X.asScalar feeType) root (by simp [← hins]) (by simpa using hf.outsNe) (by
      intro s hs
      obtain ⟨i, hi, rfl⟩ := List.mem_map.mp hs
      rw [ew]
      exact ⟨(hroot i hi).2.1, hval _, (hroot i hi).2.2⟩) (by
      intro s hs
      obtain ⟨o, _, rfl⟩ := List.mem_map.mp hs
      exact hval _) (balanced_of_fit X ho feeType ins outs fee hf.totals hfee hin hout hinj)
  have hshape : cs'.shape = cs.shape := (C67_transfer_uniform p _ _
    (fun pk sk => C72_folding_uniform p dbg P hP modulus w wit c2.consistent hwit pk sk) _ payers' _ payees' _ pk' _ sk'
    _ fee' _ (by rw [hl, List.map_map]; rfl) (by simp [hl'])).shape h1 hb
  have hfin : ∀ (Par Pf : Type) (V : XfrProver F Par Pf) (par : Par), ∀ pre, X.initXfr p feeType ins outs fee kp = .ok pre →
      X.finishXfr p V Y M dbg modulus feeType par pre h rand r =
        (V.prove par (xfrTranscript ins.length outs.length) cs'.witness).bind fun proof =>
          .ok ⟨⟨ins.map (fun i => nullify p (X.words kp.pub) (skWords kp.sec) ((info i).uid.toNat : F) (i.amount.toNat : F) (X.asScalar i.ty)),
            outs.map (fun o => commit p (X.words o.pub) o.blind (o.amount.toNat : F) (X.asScalar o.ty)), root, (info first).version, fee,
            outs.filterMap (·.memo)⟩, proof, inst⟩ := by
    intro Par Pf V par pre hpre
    obtain rfl := Res.ok.inj (hinit.symm.trans hpre)
    rw [ew, es] at h1
    unfold AnonExt.finishXfr
    rw [c1]
    simp only [Res.bind_ok]
    rw [mapM_res _ (fun t => (⟨t.1, t.2.1, t.2.2.1, X.words t.2.2.2⟩ : Payee F)) _ (by
      intro t _
      unfold AnonExt.payeeOf AnonExt.words
      rw [C72_public_scalars X t.2.2.2 (hco _).1 (hco _).2]
      rfl)]
    rw [C72_public_scalars X kp.pub (hco _).1 (hco _).2, C72_secret_scalars kp.sec hs]
    simp only [Res.bind_ok, Res.unwrap_some, List.map_map, Function.comp_def, List.length_map]
    rw [show (outs.map fun o => (⟨(o.amount.toNat : F), o.blind, X.asScalar o.ty, X.words o.pub⟩ : Payee F)) = outs.map X.payeeFor from rfl,
      show pkWords (X.coord kp.pub).1 (X.coord kp.pub).2 = (X.words kp.pub : PK F) from rfl, h1]
    simp only [Res.unwrap_some, Res.bind_ok, Res.pure_eq, (hroot first hfm).1]
    rfl
  refine ⟨_, hinit, cs', hshape, ⟨w, vars', by rw [← ew, ← es]; exact h1⟩, h6, by rw [h4]; exact h5, fun Par Pf V E par =>
    ⟨fun g1 => by rw [hfin _ _ _ _ _ hinit, g1]; rfl, fun proof g1 g2 => ?_⟩⟩
  rw [h4] at g2
  rw [ew, es] at h1 h2
  have hpub : pubs = xfrPublic (ins.map (fun i => nullify p (X.words kp.pub) (skWords kp.sec) ((info i).uid.toNat : F) (i.amount.toNat : F) (X.asScalar i.ty)))
      root (outs.map (fun o => commit p (X.words o.pub) o.blind (o.amount.toNat : F) (X.asScalar o.ty))) fee := by
    rw [← hins] at h2 hroot ⊢
    simp only [List.map_cons, pubInputs, Option.some.injEq] at h2
    rw [← h2, (hroot first (by simp)).2.2]
    simp only [List.map_map, xfrPublic, List.map_cons]
    rfl
  subst hpub
  refine ⟨⟨⟨_, _, root, (info first).version, fee, outs.filterMap (·.memo)⟩, proof, inst⟩, by rw [hfin _ _ _ _ _ hinit, g1]; rfl,
    verifyNote_of c6 c7 c8 h3 (by simpa using g2), rfl, rfl, rfl, rfl⟩

/-- C84: with keys made from the circuit of any consistent folding, payers with paths of the same lengths and as many payees, and
complete provers, a note is made for every key pair and every fitting transfer of its records, with paths to the one root,
whose inputs include the fee type and whose types match up; and the note is accepted for that root and hash. -/
theorem C84_transfer_complete (hp : GoodParams p) (ho : 2 ^ 64 ≤ ScalarRepr.order F) (dbg : Bool) (hP : FoldOk P F) (hbits : P.bits ≤ 254)
    (modulus : Bytes) (hm : modulus.length = 32) (V : XfrProver F Par Pf) (E : XfrExt F Par Pf) (Y : FoldExt P F G Hs Mp)
    (M : FoldProver P F G Hs Mp) (par : Par) (wit : FoldWitness P F) (hwit : wit.Consistent) (payers' : List (Payer F))
    (payees' : List (Payee F)) (pk' : PK F) (sk' : SK F) (fee' : F) (feeType : AT) (vars : XfrVars FoldVars) (cs : CS F)
    (hb : buildMultiXfr p (foldingCircuit p dbg P modulus wit) payers' payees' pk' sk' fee' (X.asScalar feeType) CS.new = some (vars, cs))
    (hV : ∀ tr (cs' : CS F), cs'.shape = cs.shape → cs'.value 1 = 1 → Sat cs' cs'.value cs'.online →
      ∃ pf, V.prove par tr cs'.witness = .ok pf ∧ E.plonk par tr cs'.online pf = true)
    (ins outs : List (OpenAbarAt F AT K)) (fee : UInt32) (kp : AKeyPair K)
    (hco : ∀ k, (X.coord k).1 < 2 ^ 256 ∧ (X.coord k).2 < 2 ^ 256) (hs : kp.sec < 2 ^ 256)
    (hk : (X.coord kp.pub).1 < P.r ∧ (X.coord kp.pub).2 < P.r ∧ kp.sec < P.r ∧ kp.sec < ofLE modulus)
    (hf : Fit feeType ins outs fee kp) (root : F)
    (hroot : ∀ i ∈ ins, (info i).root = root ∧ (∀ n ∈ (info i).path, GoodNode n) ∧ payerRoot p (X.words kp.pub) (X.payerOf i) = root)
    (hfee : ∃ i ∈ ins, i.ty = feeType) (hin : ∀ i ∈ ins, i.ty ≠ feeType → ∃ o ∈ outs, o.ty = i.ty)
    (hout : ∀ o ∈ outs, ∃ i ∈ ins, i.ty = o.ty)
    (hinj : ∀ i ∈ ins, ∀ j ∈ ins, X.asScalar i.ty = X.asScalar j.ty → i.ty = j.ty)
    (hl : payers'.map (fun s => s.path.length) = ins.map (fun i => (info i).path.length)) (hl' : payees'.length = outs.length)
    (h : Hs) (hM : M.Complete Y xfrFoldLabel h (X.foldKey kp)) (rand : List (ZMod P.r × ZMod P.r)) (hr : rand.length = 3) (r : F) :
    ∃ pre note, X.initXfr p feeType ins outs fee kp = .ok pre ∧
      X.finishXfr p V Y M dbg modulus feeType par pre h rand r = .ok note ∧ E.verifyNote Y par note root h = .ok () ∧
      note.body.inputs = ins.map (fun i => nullify p (X.words kp.pub) (skWords kp.sec) ((info i).uid.toNat : F) (i.amount.toNat : F) (X.asScalar i.ty)) ∧
      note.body.outputs = outs.map (fun o => commit p (X.words o.pub) o.blind (o.amount.toNat : F) (X.asScalar o.ty)) ∧
      note.body.fee = fee ∧ note.body.memos = outs.filterMap (·.memo) := by
  obtain ⟨pre, h0, cs', h1, -, h2, h3, h4⟩ := transfer_reduces p X hp ho dbg hP hbits modulus hm Y M wit hwit payers' payees' pk' sk'
    fee' feeType vars cs hb ins outs fee kp hco hs hk hf root hroot hfee hin hout hinj hl hl' h hM rand hr r
  obtain ⟨pf, h5, h6⟩ := hV _ cs' h1 h2 h3
  obtain ⟨note, h7⟩ := (h4 Par Pf V E par).2 pf h5 h6
  exact ⟨pre, note, h0, h7⟩

/-- C83 is violated (the nullifiers of a note are not compared with each other): the owner of one record of the fee type makes
a note that spends it twice, and it is accepted: two equal nullifiers, and an output with twice the amount less the fee.  The
ledger has to refuse repeated nullifiers within a note, see `C83_distinct_records`. -/
theorem C83_same_record_twice (hp : GoodParams p) (ho : 2 ^ 64 ≤ ScalarRepr.order F) (dbg : Bool) (hP : FoldOk P F) (hbits : P.bits ≤ 254)
    (modulus : Bytes) (hm : modulus.length = 32) (V : XfrProver F Par Pf) (E : XfrExt F Par Pf) (Y : FoldExt P F G Hs Mp)
    (M : FoldProver P F G Hs Mp) (par : Par) (wit : FoldWitness P F) (hwit : wit.Consistent) (payers' : List (Payer F))
    (payees' : List (Payee F)) (pk' : PK F) (sk' : SK F) (fee' : F) (feeType : AT) (vars : XfrVars FoldVars) (cs : CS F)
    (hb : buildMultiXfr p (foldingCircuit p dbg P modulus wit) payers' payees' pk' sk' fee' (X.asScalar feeType) CS.new = some (vars, cs))
    (hV : ∀ tr (cs' : CS F), cs'.shape = cs.shape → cs'.value 1 = 1 → Sat cs' cs'.value cs'.online →
      ∃ pf, V.prove par tr cs'.witness = .ok pf ∧ E.plonk par tr cs'.online pf = true)
    (i o : OpenAbarAt F AT K) (fee : UInt32) (kp : AKeyPair K)
    (hco : ∀ k, (X.coord k).1 < 2 ^ 256 ∧ (X.coord k).2 < 2 ^ 256) (hs : kp.sec < 2 ^ 256)
    (hk : (X.coord kp.pub).1 < P.r ∧ (X.coord kp.pub).2 < P.r ∧ kp.sec < P.r ∧ kp.sec < ofLE modulus)
    (hi : i.ty = feeType) (hoty : o.ty = feeType) (hpub : i.pub = kp.pub) (leaf : LeafInfo F) (hleaf : i.leaf = some leaf)
    (hmemo : o.memo.isSome) (hamt : 2 * i.amount.toNat = o.amount.toNat + fee.toNat)
    (hroot : (∀ n ∈ leaf.path, GoodNode n) ∧ payerRoot p (X.words kp.pub) (X.payerOf i) = leaf.root)
    (hl : payers'.map (fun s => s.path.length) = [leaf.path.length, leaf.path.length]) (hl' : payees'.length = 1)
    (h : Hs) (hM : M.Complete Y xfrFoldLabel h (X.foldKey kp)) (rand : List (ZMod P.r × ZMod P.r)) (hr : rand.length = 3) (r : F) :
    ∃ pre note nul, X.initXfr p feeType [i, i] [o] fee kp = .ok pre ∧
      X.finishXfr p V Y M dbg modulus feeType par pre h rand r = .ok note ∧ E.verifyNote Y par note leaf.root h = .ok () ∧
      note.body.inputs = [nul, nul] ∧
      note.body.outputs = [commit p (X.words o.pub) o.blind (o.amount.toNat : F) (X.asScalar o.ty)] := by
  have hinfo : info i = leaf := by simp [info, hleaf]
  obtain ⟨pre, note, h1, h2, h3, h4, h5, -⟩ := C84_transfer_complete p X hp ho dbg hP hbits modulus hm V E Y M par wit hwit payers' payees' pk' sk' fee'
    feeType vars cs hb hV [i, i] [o] fee kp hco hs hk ⟨by simp, by simp, by simp [hleaf, hpub], by
      intro t ht
      have : t = feeType := by
        obtain ⟨r, hr, rfl⟩ := ht
        simp only [List.cons_append, List.nil_append, List.mem_cons, List.not_mem_nil, or_false] at hr
        rcases hr with rfl | rfl | rfl
        · exact hi
        · exact hi
        · exact hoty
      subst this
      simp only [heldTotal, List.map_cons, List.map_nil, OpenAbarAt.held, hi, hoty, decide_true, List.filter_cons, if_true, List.filter_nil,
        List.sum_cons, List.sum_nil]
      omega, by simp, by simpa using hmemo⟩ leaf.root
    (by
      intro j hj
      have : j = i := by simpa using hj
      subst this
      rw [hinfo]
      exact ⟨rfl, hroot⟩) ⟨i, by simp, hi⟩ (by
      intro j hj hne
      have : j = i := by simpa using hj
      subst this
      exact absurd hi hne) (by
      intro j hj
      have : j = o := by simpa using hj
      subst this
      exact ⟨i, by simp, by rw [hi, hoty]⟩) (by
      intro a ha b hb _
      have : a = i := by simpa using ha
      subst this
      have : b = a := by simpa using hb
      rw [this]) (by rw [hl]; simp [hinfo]) (by rw [hl']; rfl) h hM rand hr r
  exact ⟨pre, note, _, h1, h2, h3, h4, h5⟩

omit [DecidableEq AT] [DecidableEq K] [AddCommGroup Ep] [AddCommGroup K] in
/-- C84 is violated at its edge: a transfer without an input of the fee type fits, whatever the fee (`C52_fee_skipped`), but
no note with its nullifiers is accepted when the assignments behind accepted proofs have the constant one, unless two
nullifiers contain the collision `nullCollision`. -/
theorem C84_fee_type_missing (hp : GoodParams p) (E : XfrExt F Par Pf) (Y : FoldExt P F G Hs Mp) (par : Par)
    (dbg : Bool) (h : FoldOk P F) (modulus : Bytes) (hm : modulus.length = 32) (hf : false ∈ modulus.flatMap byteBits)
    (wit : FoldWitness P F) (payers' : List (Payer F)) (payees' : List (Payee F))
    (pk0 : PK F) (sk0 : SK F) (fee0 : F) (feeType : AT) (hi : payers'.length * 2 ^ 64 < ScalarRepr.order F)
    (ho : (payees'.length + 1) * 2 ^ 64 < ScalarRepr.order F) (vars : XfrVars FoldVars) (cs : CS F)
    (hb : buildMultiXfr p (foldingCircuit p dbg P modulus wit) payers' payees' pk0 sk0 fee0 (X.asScalar feeType) CS.new = some (vars, cs))
    (Z : Pf → Nat → F) (hZ : KnowsXfr E par cs Z) (note : XfrNote P F K Pf G Mp) (root : F) (hs : Hs)
    (hacc : E.verifyNote Y par note root hs = .ok ()) (h1 : Z note.proof 1 = 1)
    (hn : note.body.inputs.length = payers'.length) (hc : note.body.outputs.length = payees'.length)
    (ins : List (OpenAbarAt F AT K)) (kp : AKeyPair K)
    (hbody : note.body.inputs = ins.map (fun i => nullify p (X.words kp.pub) (skWords kp.sec) ((info i).uid.toNat : F) (i.amount.toNat : F) (X.asScalar i.ty)))
    (hno : ∀ i ∈ ins, X.asScalar i.ty ≠ X.asScalar feeType) :
    ∃ i ∈ ins, ∃ s ∈ vars.payers.map (spentVal (Z note.proof)),
      Collides p (nullCollision p ⟨X.words kp.pub, skWords kp.sec, ((info i).uid.toNat : F), (i.amount.toNat : F), X.asScalar i.ty⟩
          ⟨pkVal (Z note.proof) vars.pk, skVal (Z note.proof) vars.sk, s.uid, s.amount, s.ty⟩).1
        (nullCollision p ⟨X.words kp.pub, skWords kp.sec, ((info i).uid.toNat : F), (i.amount.toNat : F), X.asScalar i.ty⟩
          ⟨pkVal (Z note.proof) vars.pk, skVal (Z note.proof) vars.sk, s.uid, s.amount, s.ty⟩).2 := by
  obtain ⟨hr, ch, fold, hch, -, hvi, hpl⟩ := verifyNote_ok hacc
  obtain ⟨hl, hsat⟩ := hZ _ _ _ hpl
  have hfee : ScalarRepr.val ((note.body.fee.toNat : Nat) : F) < 2 ^ 64 := by
    have h1 := note.body.fee.toNat_lt
    have h2 : 2 ^ 64 ≤ (payees'.length + 1) * 2 ^ 64 := Nat.le_mul_of_pos_left _ (by omega)
    rw [ScalarRepr.val_cast _ (by omega)]
    omega
  unfold xfrPublic at hl hsat
  obtain ⟨-, hva, -, -⟩ := C67_transfer_folding_sound_partial p hp dbg P h modulus hm hf wit payers' payees' pk0 sk0 fee0 _ hi ho
    vars cs hb note.body.inputs note.body.outputs fold root _ hn hc hl hfee _ ch.1 ch.2 _ hvi (Z note.proof) hsat h1
  obtain ⟨s, hs, hty⟩ := hva.feeIn
  have hnul : nullify p (pkVal (Z note.proof) vars.pk) (skVal (Z note.proof) vars.sk) s.uid s.amount s.ty ∈ note.body.inputs := by
    rw [hva.nuls]
    exact List.mem_map.mpr ⟨s, hs, rfl⟩
  rw [hbody] at hnul
  obtain ⟨i, hi, he⟩ := List.mem_map.mp hnul
  refine ⟨i, hi, s, hs, ?_⟩
  unfold nullCollision
  split
  · rename_i hout
    have hfst := congrArg Prod.fst hout
    refine ⟨fun hin => hno i hi ?_, hfst⟩
    rw [← hty]
    exact congrArg (fun q : Rescue.State F => q.2.1) hin
  · rename_i hout
    exact ⟨hout, he⟩

end

end Verif.Anon
