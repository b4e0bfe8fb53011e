import Verif.Anon.Transfer

/-!
Property C67, continued: honest provers succeed, the circuit does not depend on the witness, and the circuit does not
prevent inflation because the variable `one_var` is not constrained.
-/

namespace Verif.Anon

open Verif.Plonk Verif.Plonk.Spec Spec

variable {F : Type} [Field F]

/-- the stored witness gives the variables `vs` the values `xs` -/
def HasList (cs : CS F) (vs : List Nat) (xs : List F) : Prop := List.Forall₂ (Has cs) vs xs

theorem HasList.mono {cs cs' : CS F} {pv : List Nat} (hw : WF cs) (h : Mono cs cs' pv) {vs : List Nat} {xs : List F}
    (hn : HasList cs vs xs) : HasList cs' vs xs := List.Forall₂.imp (fun _ _ hn => hn.mono hw h) hn

theorem HasList.map {cs : CS F} {vs : List Nat} {xs : List F} (h : HasList cs vs xs) : vs.map cs.value = xs := by
  unfold HasList at h
  induction h with
  | nil => rfl
  | cons a _ ih => simp [a.2, ih]

theorem HasList.append {cs : CS F} {vs vs' : List Nat} {xs xs' : List F} (h : HasList cs vs xs)
    (h' : HasList cs vs' xs') : HasList cs (vs ++ vs') (xs ++ xs') := List.rel_append h h'

theorem HasList.single {cs : CS F} {v : Nat} {x : F} (h : Has cs v x) : HasList cs [v] [x] := .cons h .nil

/-- three variables with their values -/
structure HasPk (cs : CS F) (v : PK Nat) (k : PK F) : Prop where
  a : Has cs v.1 k.1
  b : Has cs v.2.1 k.2.1
  c : Has cs v.2.2 k.2.2

theorem HasPk.mono {cs cs' : CS F} {pv : List Nat} (hw : WF cs) (h : Mono cs cs' pv) {v : PK Nat} {k : PK F}
    (hn : HasPk cs v k) : HasPk cs' v k := ⟨hn.a.mono hw h, hn.b.mono hw h, hn.c.mono hw h⟩

/-- two variables with their values -/
structure HasSk (cs : CS F) (v : SK Nat) (k : SK F) : Prop where
  a : Has cs v.1 k.1
  b : Has cs v.2 k.2

theorem HasSk.mono {cs cs' : CS F} {pv : List Nat} (hw : WF cs) (h : Mono cs cs' pv) {v : SK Nat} {k : SK F}
    (hn : HasSk cs v k) : HasSk cs' v k := ⟨hn.a.mono hw h, hn.b.mono hw h⟩

/-- the variables of a payer hold the payer's witness -/
structure HasPayer (cs : CS F) (s : Payer F) (v : PayerVars) : Prop where
  uid : Has cs v.uid s.uid
  amount : Has cs v.amount s.amount
  ty : Has cs v.ty s.ty
  blind : Has cs v.blind s.blind
  path : HasPath cs s.path v.path

theorem HasPayer.mono {cs cs' : CS F} {pv : List Nat} (hw : WF cs) (h : Mono cs cs' pv) {s : Payer F} {v : PayerVars}
    (hn : HasPayer cs s v) : HasPayer cs' s v :=
  ⟨hn.uid.mono hw h, hn.amount.mono hw h, hn.ty.mono hw h, hn.blind.mono hw h, hn.path.mono hw h⟩

/-- the variables of a payee hold the payee's witness -/
structure HasPayee (cs : CS F) (s : Payee F) (v : PayeeVars) : Prop where
  amount : Has cs v.amount s.amount
  ty : Has cs v.ty s.ty
  blind : Has cs v.blind s.blind
  pk : HasPk cs v.pk s.pk

theorem HasPayee.mono {cs cs' : CS F} {pv : List Nat} (hw : WF cs) (h : Mono cs cs' pv) {s : Payee F} {v : PayeeVars}
    (hn : HasPayee cs s v) : HasPayee cs' s v :=
  ⟨hn.amount.mono hw h, hn.ty.mono hw h, hn.blind.mono hw h, hn.pk.mono hw h⟩

/-- all payers -/
def HasPayers (cs : CS F) (l : List (Payer F)) (vs : List PayerVars) : Prop := List.Forall₂ (HasPayer cs) l vs

theorem HasPayers.mono {cs cs' : CS F} {pv : List Nat} (hw : WF cs) (h : Mono cs cs' pv) {l : List (Payer F)}
    {vs : List PayerVars} (hn : HasPayers cs l vs) : HasPayers cs' l vs :=
  List.Forall₂.imp (fun _ _ hn => hn.mono hw h) hn

/-- all payees -/
def HasPayees (cs : CS F) (l : List (Payee F)) (vs : List PayeeVars) : Prop := List.Forall₂ (HasPayee cs) l vs

theorem HasPayees.mono {cs cs' : CS F} {pv : List Nat} (hw : WF cs) (h : Mono cs cs' pv) {l : List (Payee F)}
    {vs : List PayeeVars} (hn : HasPayees cs l vs) : HasPayees cs' l vs :=
  List.Forall₂.imp (fun _ _ hn => hn.mono hw h) hn

theorem runs_pkVars (k : PK F) (cs : CS F) : Runs (pkVars k) cs (fun v cs' => HasPk cs' v k) := by
  unfold pkVars
  refine Runs.bind (runs_newVar _ _) ?_
  intro a cs1 w0 w1 m1 ha
  refine Runs.bind (runs_newVar _ _) ?_
  intro b cs2 _ w2 m2 hb
  adv w1 m2
  refine Runs.bind (runs_newVar _ _) ?_
  intro c cs3 _ w3 m3 hc
  adv w2 m3
  exact Runs.pure _ _ _ ⟨ha, hb, hc⟩

theorem runs_payerVars (s : Payer F) (hg : ∀ n ∈ s.path, GoodNode n) (cs : CS F) :
    Runs (payerVars s) cs (fun v cs' => HasPayer cs' s v) := by
  unfold payerVars
  refine Runs.bind (runs_newVar _ _) ?_
  intro a cs1 w0 w1 m1 ha
  refine Runs.bind (runs_newVar _ _) ?_
  intro b cs2 _ w2 m2 hb
  adv w1 m2
  refine Runs.bind (runs_newVar _ _) ?_
  intro c cs3 _ w3 m3 hc
  adv w2 m3
  refine Runs.bind (runs_addMerklePath _ _ hg) ?_
  intro d cs4 _ w4 m4 hd
  adv w3 m4
  refine Runs.bind (runs_newVar _ _) ?_
  intro e cs5 _ w5 m5 he
  adv w4 m5
  exact Runs.pure _ _ _ ⟨ha, hb, he, hc, hd⟩

theorem runs_payeeVars (s : Payee F) (cs : CS F) : Runs (payeeVars s) cs (fun v cs' => HasPayee cs' s v) := by
  unfold payeeVars
  refine Runs.bind (runs_newVar _ _) ?_
  intro a cs1 w0 w1 m1 ha
  refine Runs.bind (runs_newVar _ _) ?_
  intro b cs2 _ w2 m2 hb
  adv w1 m2
  refine Runs.bind (runs_newVar _ _) ?_
  intro c cs3 _ w3 m3 hc
  adv w2 m3
  refine Runs.bind (runs_pkVars _ _) ?_
  intro d cs4 _ w4 m4 hd
  adv w3 m4
  exact Runs.pure _ _ _ ⟨ha, hc, hb, hd⟩

variable (p : Rescue.Params F)

theorem runs_commitInCs (hp : GoodParams p) (blind amount ty : Nat) (pk : PK Nat) (b a t : F) (k : PK F) (cs : CS F)
    (h0 : Has cs 0 0) (hb : Has cs blind b) (ha : Has cs amount a) (ht : Has cs ty t) (hk : HasPk cs pk k) :
    Runs (commitInCs p blind amount ty pk) cs (fun o cs' => Has cs' o (commit p k b a t)) := by
  unfold commitInCs
  refine Runs.bind (runs_hash4 p hp _ _ _ _ _ _ _ _ _ hb ha ht hk.a) ?_
  intro cur cs1 w0 w1 m1 hcur
  adv w0 m1
  refine Runs.bind (runs_hash4 p hp _ _ _ _ _ _ _ _ _ hcur hk.b hk.c h0) ?_
  intro out cs2 _ w2 m2 hout
  exact Runs.pure _ _ _ hout

theorem runs_nullifyInCs (hp : GoodParams p) (sk : SK Nat) (ua ty : Nat) (pk : PK Nat) (uid a t : F) (k : PK F) (s : SK F)
    (cs : CS F) (hu : Has cs ua (uid * 2 ^ 64 + a)) (ht : Has cs ty t) (hk : HasPk cs pk k) (hs : HasSk cs sk s) :
    Runs (nullifyInCs p sk ua ty pk) cs (fun o cs' => Has cs' o (nullify p k s uid a t)) := by
  unfold nullifyInCs
  refine Runs.bind (runs_hash4 p hp _ _ _ _ _ _ _ _ _ hu ht hk.a hk.b) ?_
  intro cur cs1 w0 w1 m1 hcur
  adv w0 m1
  refine Runs.bind (runs_hash4 p hp _ _ _ _ _ _ _ _ _ hcur hk.c hs.a hs.b) ?_
  intro out cs2 _ w2 m2 hout
  exact Runs.pure _ _ _ hout

variable [DecidableEq F] [ScalarRepr F]

/-- a payer whose path has proper direction bits, whose amount is a 64-bit number and whose path leads to `root` -/
structure GoodPayer (pk : PK F) (root : F) (s : Payer F) : Prop where
  path : ∀ n ∈ s.path, GoodNode n
  range : ScalarRepr.val s.amount < 2 ^ 64
  root : payerRoot p pk s = root

theorem runs_payerStep (hp : GoodParams p) (pkv : PK Nat) (skv : SK Nat) (pk : PK F) (sk : SK F) (root : Option Nat) (R : F)
    (v : PayerVars) (s : Payer F) (cs : CS F) (h0 : Has cs 0 0) (hk : HasPk cs pkv pk) (hs : HasSk cs skv sk)
    (hv : HasPayer cs s v) (hr : ∀ x, root = some x → Has cs x R) (hg : GoodPayer p pk R s) :
    RunsP (payerStep p pkv skv root v) cs (fun o cs' pv => (∃ x, o = some x ∧ Has cs' x R) ∧
      HasList cs' pv [nullify p pk sk s.uid s.amount s.ty]) := by
  unfold payerStep
  obtain ⟨v1, v2, v3, v4, v5⟩ := hv
  refine RunsP.bindR (runs_commitInCs p hp _ _ _ _ _ _ _ _ _ h0 v4 v2 v3 hk) ?_
  intro com cs1 w0 w1 m1 hcom
  have hr : ∀ x, root = some x → Has cs1 x R := fun x hx => (hr x hx).mono w0 m1
  adv w0 m1
  refine RunsP.bindR (runs_linearCombine _ _ _ _ _ _ _ _ _ _ _ _ _ v1 v2 h0 h0) ?_
  intro ua cs2 _ w2 m2 hua
  have hr : ∀ x, root = some x → Has cs2 x R := fun x hx => (hr x hx).mono w1 m2
  adv w1 m2
  rw [show (2 ^ 64 * s.uid + 1 * s.amount + 0 * 0 + 0 * 0 : F) = s.uid * 2 ^ 64 + s.amount by ring] at hua
  refine RunsP.bindR (runs_nullifyInCs p hp _ _ _ _ _ _ _ _ _ _ hua v3 hk hs) ?_
  intro nul cs3 _ w3 m3 hnul
  have hr : ∀ x, root = some x → Has cs3 x R := fun x hx => (hr x hx).mono w2 m3
  adv w2 m3
  refine RunsP.bindR (runs_merkleRootVars p hp _ _ _ _ _ _ _ h0 v1 hcom v5 hg.path) ?_
  intro r cs4 _ w4 m4 hroot
  have hr : ∀ x, root = some x → Has cs4 x R := fun x hx => (hr x hx).mono w3 m4
  adv w3 m4
  replace hroot : Has cs4 r R := by rw [← hg.root]; exact hroot
  refine RunsP.bindR (runs_rangeCheck _ 64 _ _ (by norm_num) h0 v2 hg.range) ?_
  intro _ cs5 _ w5 m5 _
  have hr : ∀ x, root = some x → Has cs5 x R := fun x hx => (hr x hx).mono w4 m5
  adv w4 m5
  have hc : Runs (checkRoot root r) cs5 (fun o cs' => ∃ x, o = some x ∧ Has cs' x R) := by
    unfold checkRoot
    cases root with
    | none => exact Runs.pure _ _ _ ⟨r, rfl, hroot⟩
    | some x =>
      refine Runs.bind (runs_equalV _ _ _ _ h0 (hr x rfl) hroot) ?_
      intro _ cs6 w5' w6 m6 _
      exact Runs.pure _ _ _ ⟨x, rfl, (hr x rfl).mono w5' m6⟩
  refine RunsP.bindR hc ?_
  rintro o cs6 _ w6 m6 ⟨x, rfl, hx⟩
  adv w5 m6
  refine RunsP.bind (runsP_preparePi nul cs6 hnul.1) ?_
  rintro _ cs7 pv _ w7 m7 rfl
  adv w6 m7
  exact RunsP.pure _ _ _ ⟨⟨x, rfl, hx⟩, .single hnul⟩

theorem runs_payers (hp : GoodParams p) (pkv : PK Nat) (skv : SK Nat) (pk : PK F) (sk : SK F) (R : F)
    (payers : List (Payer F)) : ∀ (pvs : List PayerVars) (root : Option Nat) (cs : CS F), Has cs 0 0 → HasPk cs pkv pk →
      HasSk cs skv sk → HasPayers cs payers pvs → (∀ x, root = some x → Has cs x R) →
      (∀ s ∈ payers, GoodPayer p pk R s) →
      RunsP (pvs.foldlM (payerStep p pkv skv) root) cs (fun o cs' pv =>
        (payers ≠ [] ∨ (∃ x, root = some x) → ∃ x, o = some x ∧ Has cs' x R) ∧
        HasList cs' pv (payers.map (fun s => nullify p pk sk s.uid s.amount s.ty))) := by
  induction payers with
  | nil =>
    intro pvs root cs h0 hk hs hv hr hg
    cases hv
    refine RunsP.pure _ _ _ ⟨?_, .nil⟩
    rintro (h | ⟨x, rfl⟩)
    · simp at h
    · exact ⟨x, rfl, hr x rfl⟩
  | cons s payers ih =>
    intro pvs root cs h0 hk hs hv hr hg
    cases hv with
    | @cons _ v _ pvs a b =>
    have b : HasPayers cs payers pvs := b
    rw [List.foldlM_cons]
    refine RunsP.bind (runs_payerStep p hp pkv skv pk sk root R v s cs h0 hk hs a hr (hg s (by simp))) ?_
    rintro o cs1 pv1 w0 w1 m1 ⟨⟨x, rfl, hx⟩, hl⟩
    adv w0 m1
    refine (ih pvs (some x) cs1 h0 hk hs b (by rintro _ ⟨rfl⟩; exact hx) (fun s hs => hg s (by simp [hs]))).cons ?_
    rintro o cs2 pv2 w1' w2 m2 ⟨h1, h2⟩
    exact ⟨fun _ => h1 (.inr ⟨x, rfl⟩), (hl.mono w1' m2).append h2⟩

theorem runs_payees (hp : GoodParams p) (payees : List (Payee F)) : ∀ (qvs : List PayeeVars) (cs : CS F), Has cs 0 0 →
      HasPayees cs payees qvs → (∀ s ∈ payees, ScalarRepr.val s.amount < 2 ^ 64) →
      RunsP (qvs.foldlM (fun _ v => payeeStep p v) ()) cs (fun _ cs' pv =>
        HasList cs' pv (payees.map (fun t => commit p t.pk t.blind t.amount t.ty))) := by
  induction payees with
  | nil =>
    intro qvs cs h0 hv hg
    cases hv
    exact RunsP.pure _ _ _ .nil
  | cons s payees ih =>
    intro qvs cs h0 hv hg
    cases hv with
    | @cons _ v _ qvs a b =>
    have b : HasPayees cs payees qvs := b
    obtain ⟨v1, v2, v3, v4⟩ := a
    rw [List.foldlM_cons]
    have hstep : RunsP (payeeStep p v) cs (fun _ cs' pv =>
        HasList cs' pv [commit p s.pk s.blind s.amount s.ty]) := by
      unfold payeeStep
      refine RunsP.bindR (runs_commitInCs p hp _ _ _ _ _ _ _ _ _ h0 v3 v1 v2 v4) ?_
      intro com cs1 w0 w1 m1 hcom
      adv w0 m1
      refine RunsP.bindR (runs_rangeCheck _ 64 _ _ (by norm_num) h0 v1 (hg s (by simp))) ?_
      intro _ cs2 _ w2 m2 _
      adv w1 m2
      refine (runsP_preparePi com cs2 hcom.1).cons ?_
      rintro _ cs3 pv _ w3 m3 rfl
      exact .single (hcom.mono w2 m3)
    refine RunsP.bind hstep ?_
    intro _ cs1 pv1 w0 w1 m1 hl
    adv w0 m1
    refine (ih qvs cs1 h0 b (fun s hs => hg s (by simp [hs]))).cons ?_
    intro _ cs2 pv2 w1' w2 m2 h2
    exact (hl.mono w1' m2).append h2

namespace Spec

/-- the records of a transfer balance in the way the mixing circuit asks -/
structure Balanced (payers : List (Payer F)) (payees : List (Payee F)) (feeType fee : F) : Prop where
  hasFee : ∃ s ∈ payers, s.ty = feeType
  outIn : ∀ t ∈ payees, ∃ s ∈ payers, s.ty = t.ty
  inOut : ∀ s ∈ payers, s.ty ≠ feeType → ∃ t ∈ payees, s.ty = t.ty
  balance : ∀ t, ((payers.filter (fun s => s.ty = t)).map (fun s => ScalarRepr.val s.amount)).sum =
    ((payees.filter (fun s => s.ty = t)).map (fun s => ScalarRepr.val s.amount)).sum +
      if t = feeType then ScalarRepr.val fee else 0

end Spec

/-- an honest prover with the constant one, or any prover with the constant zero and a single type -/
def XfrMode (payers : List (Payer F)) (payees : List (Payee F)) (feeType fee u : F) : Prop :=
  (u = 1 ∧ Balanced payers payees feeType fee) ∨
  (u = 0 ∧ (∀ s ∈ payers, s.ty = feeType) ∧ ∀ t ∈ payees, t.ty = feeType)

omit [DecidableEq F] in
theorem payers_records {cs : CS F} {payers : List (Payer F)} {pvs : List PayerVars} (h : HasPayers cs payers pvs) :
    HasRecs cs (pvs.map (fun v => (v.ty, v.amount))) cs.value ∧
    records cs.value (pvs.map (fun v => (v.ty, v.amount))) = payers.map (fun s => (s.ty, s.amount)) := by
  unfold HasPayers at h
  unfold HasRecs records
  induction h with
  | nil => simp
  | cons a _ ih =>
    refine ⟨?_, ?_⟩
    · intro q hq
      rcases List.mem_cons.mp hq with rfl | hq
      · exact ⟨⟨a.ty.1, rfl⟩, ⟨a.amount.1, rfl⟩⟩
      · exact ih.1 q hq
    · simp only [List.map_cons, ih.2, a.ty.2, a.amount.2]

omit [DecidableEq F] in
theorem payees_records {cs : CS F} {payees : List (Payee F)} {qvs : List PayeeVars} (h : HasPayees cs payees qvs) :
    HasRecs cs (qvs.map (fun v => (v.ty, v.amount))) cs.value ∧
    records cs.value (qvs.map (fun v => (v.ty, v.amount))) = payees.map (fun s => (s.ty, s.amount)) := by
  unfold HasPayees at h
  unfold HasRecs records
  induction h with
  | nil => simp
  | cons a _ ih =>
    refine ⟨?_, ?_⟩
    · intro q hq
      rcases List.mem_cons.mp hq with rfl | hq
      · exact ⟨⟨a.ty.1, rfl⟩, ⟨a.amount.1, rfl⟩⟩
      · exact ih.1 q hq
    · simp only [List.map_cons, ih.2, a.ty.2, a.amount.2]

omit [DecidableEq F] [ScalarRepr F] p in
theorem mem_records {f : Nat → F} {l : List (Nat × Nat)} {α : Type} {m : List α} {ty amount : α → F}
    (h : records f l = m.map (fun s => (ty s, amount s))) (t : F) : (∃ i ∈ l, f i.1 = t) ↔ ∃ s ∈ m, ty s = t := by
  have h' := congrArg (List.map Prod.fst) h
  unfold records at h'
  simp only [List.map_map] at h'
  constructor
  · rintro ⟨i, hi, rfl⟩
    have : f i.1 ∈ m.map (Prod.fst ∘ fun s => (ty s, amount s)) := by
      rw [← h']
      exact List.mem_map.mpr ⟨i, hi, rfl⟩
    obtain ⟨s, hs, e⟩ := List.mem_map.mp this
    exact ⟨s, hs, e⟩
  · rintro ⟨s, hs, rfl⟩
    have : ty s ∈ l.map (Prod.fst ∘ fun p => (f p.1, f p.2)) := by
      rw [h']
      exact List.mem_map.mpr ⟨s, hs, rfl⟩
    obtain ⟨i, hi, e⟩ := List.mem_map.mp this
    exact ⟨i, hi, e⟩

omit p in
theorem mixMode {f : Nat → F} {ins outs : List (Nat × Nat)} {payers : List (Payer F)} {payees : List (Payee F)}
    (hi : records f ins = payers.map (fun s => (s.ty, s.amount)))
    (ho : records f outs = payees.map (fun s => (s.ty, s.amount))) (hne : payers ≠ []) {feeType fee u : F}
    (hm : XfrMode payers payees feeType fee u) : MixMode f ins outs feeType fee u := by
  rcases hm with ⟨hu, hm⟩ | ⟨hu, h1, h2⟩
  · refine .inl ⟨hu, ?_, ?_, ?_, ?_⟩
    · exact (mem_records hi feeType).mpr hm.hasFee
    · intro o hO
      obtain ⟨t, ht, e⟩ := (mem_records ho (f o.1)).mp ⟨o, hO, rfl⟩
      obtain ⟨s, hs, e'⟩ := hm.outIn t ht
      exact (mem_records hi (f o.1)).mpr ⟨s, hs, by rw [e', e]⟩
    · intro i hI hf
      obtain ⟨s, hs, e⟩ := (mem_records hi (f i.1)).mp ⟨i, hI, rfl⟩
      obtain ⟨t, ht, e'⟩ := hm.inOut s hs (by rw [e]; exact hf)
      obtain ⟨o, hO, eo⟩ := (mem_records ho (f i.1)).mpr ⟨t, ht, by rw [← e', e]⟩
      exact ⟨o, hO, eo.symm⟩
    · intro t
      have := hm.balance t
      rw [sum_filter_totalNat payers Payer.ty Payer.amount t, sum_filter_totalNat payees Payee.ty Payee.amount t,
        ← hi, ← ho] at this
      rw [← totalNat_cast, ← totalNat_cast, this]
      push_cast
      congr 1
      split
      · exact ScalarRepr.cast_val fee
      · rfl
  · refine .inr ⟨hu, ?_, ?_, ?_⟩
    · rintro rfl
      simp [records] at hi
      exact hne hi
    · intro q hq
      obtain ⟨s, hs, e⟩ := (mem_records hi (f q.1)).mp ⟨q, hq, rfl⟩
      rw [← e, h1 s hs]
    · intro q hq
      obtain ⟨s, hs, e⟩ := (mem_records ho (f q.1)).mp ⟨q, hq, rfl⟩
      rw [← e, h2 s hs]

/-- the builder run on a system whose variable one holds `u` -/
theorem runs_buildMultiXfr (hp : GoodParams p) {α : Type} (folding : PK Nat → SK Nat → Build F α) (payers : List (Payer F))
    (payees : List (Payee F)) (pk : PK F) (sk : SK F) (fee feeType u root : F) (foldPub : List F)
    (hfold : ∀ cs pkv skv, Has cs 0 0 → Has cs 1 u → HasPk cs pkv pk → HasSk cs skv sk →
      RunsP (folding pkv skv) cs (fun _ cs' pv => HasList cs' pv foldPub))
    (hne : payers ≠ []) (hne' : payees ≠ []) (hg : ∀ s ∈ payers, GoodPayer p pk root s)
    (hg' : ∀ t ∈ payees, ScalarRepr.val t.amount < 2 ^ 64) (hm : XfrMode payers payees feeType fee u) (cs : CS F)
    (h0 : Has cs 0 0) (h1 : Has cs 1 u) :
    RunsP (buildMultiXfr p folding payers payees pk sk fee feeType) cs (fun v cs' pv => HasList cs' pv
      (payers.map (fun s => nullify p pk sk s.uid s.amount s.ty) ++ [root] ++
      payees.map (fun t => commit p t.pk t.blind t.amount t.ty) ++ [fee] ++ foldPub) ∧
      HasPk cs' v.pk pk ∧ HasSk cs' v.sk sk) := by
  unfold buildMultiXfr
  rw [if_neg (by tauto)]
  refine RunsP.bindR (Runs.mapM payerVars (fun cs (s : Payer F) v => HasPayer cs s v)
    (fun _ _ _ _ hw mo h => h.mono hw mo) payers cs (fun cs s hs _ _ => runs_payerVars s (hg s hs).path cs)) ?_
  intro pvs cs1 w0 w1 m1 hps
  have hps : HasPayers cs1 payers pvs := hps
  adv w0 m1
  refine RunsP.bindR (Runs.mapM payeeVars (fun cs (s : Payee F) v => HasPayee cs s v)
    (fun _ _ _ _ hw mo h => h.mono hw mo) payees cs1 (fun cs s hs _ _ => runs_payeeVars s cs)) ?_
  intro qvs cs2 _ w2 m2 hqs
  have hqs : HasPayees cs2 payees qvs := hqs
  adv w1 m2
  refine RunsP.bindR (runs_pkVars pk cs2) ?_
  intro pkv cs3 _ w3 m3 hk
  adv w2 m3
  refine RunsP.bindR (runs_newVar _ _) ?_
  intro s0 cs4 _ w4 m4 hs0
  adv w3 m4
  refine RunsP.bindR (runs_newVar _ _) ?_
  intro s1 cs5 _ w5 m5 hs1
  adv w4 m5
  have hsk : HasSk cs5 (s0, s1) sk := ⟨hs0, hs1⟩
  refine RunsP.bind (runs_payers p hp pkv (s0, s1) pk sk root payers pvs none cs5 h0 hk hsk hps (by simp) hg) ?_
  rintro r cs6 nulPv _ w6 m6 ⟨hr, hnul⟩
  adv w5 m6
  obtain ⟨rv, rfl, hrv⟩ := hr (.inl hne)
  refine RunsP.bindR (Runs.liftM _ rv rfl _) ?_
  rintro rv' cs6' _ _ _ ⟨e1, e2⟩
  subst e1 e2
  refine RunsP.bind (runsP_preparePi _ _ hrv.1) ?_
  rintro _ cs7 _ _ w7 m7 rfl
  adv w6 m7
  refine RunsP.bind (runs_payees p hp payees qvs cs7 h0 hqs hg') ?_
  rintro _ cs8 comPv _ w8 m8 hcom
  adv w7 m8
  refine RunsP.bindR (runs_newVar _ _) ?_
  intro fv cs9 _ w9 m9 hfv
  adv w8 m9
  refine RunsP.bind (runsP_preparePi fv _ hfv.1) ?_
  rintro _ cs10 _ _ w10 m10 rfl
  adv w9 m10
  refine RunsP.bind (hfold cs10 pkv (s0, s1) h0 h1 hk hsk) ?_
  intro _ cs11 foldPv _ w11 m11 hfp
  adv w10 m11
  obtain ⟨ri, ei⟩ := payers_records hps
  obtain ⟨ro, eo⟩ := payees_records hqs
  refine RunsP.bindR (runs_assetMixing_u _ _ feeType fee u fv cs11.value cs11 h0 h1 ri ro hfv
    (mixMode ei eo hne hm)) ?_
  intro _ cs12 _ w12 m12 _
  adv w11 m12
  refine RunsP.bindR (runs_pad cs12) ?_
  rintro _ cs13 _ w13 m13 -
  adv w12 m13
  refine RunsP.pure _ _ _ ?_
  have : nulPv ++ ([rv'] ++ (comPv ++ ([fv] ++ (foldPv ++ [])))) = nulPv ++ [rv'] ++ comPv ++ [fv] ++ foldPv := by simp
  rw [this]
  exact ⟨(((hnul.append (.single hrv)).append hcom).append (.single hfv)).append hfp, hk, hsk⟩

/-- C67 (completeness): for honest payers (proper direction bits, 64-bit amounts, paths to one root) and payees whose
records balance, the builder does not panic, its witness satisfies the circuit and the public inputs are exactly those the
prover computes natively. -/
theorem C67_transfer_complete (hp : GoodParams p) {α : Type} (folding : PK Nat → SK Nat → Build F α) (payers : List (Payer F))
    (payees : List (Payee F)) (pk : PK F) (sk : SK F) (fee feeType root : F) (foldPub : List F)
    (hfold : ∀ cs pkv skv, Has cs 0 0 → Has cs 1 1 → HasPk cs pkv pk → HasSk cs skv sk →
      RunsP (folding pkv skv) cs (fun _ cs' pv => HasList cs' pv foldPub))
    (hne : payers ≠ []) (hne' : payees ≠ []) (hg : ∀ s ∈ payers, GoodPayer p pk root s)
    (hg' : ∀ t ∈ payees, ScalarRepr.val t.amount < 2 ^ 64) (hm : Balanced payers payees feeType fee) :
    ∃ vars cs pubs, buildMultiXfr p folding payers payees pk sk fee feeType CS.new = some (vars, cs) ∧
      pubInputs p pk sk payers payees fee = some pubs ∧ cs.online = pubs ++ foldPub ∧
      Sat cs cs.value (pubs ++ foldPub) ∧ cs.value 1 = 1 := by
  obtain ⟨u, cs, pv, e, hw, hs, mo, h, -⟩ := runs_buildMultiXfr p hp folding payers payees pk sk fee feeType 1 root foldPub
    hfold hne hne' hg hg' (.inl ⟨rfl, hm⟩) CS.new new_has.1 new_has.2 WF.new new_hsat
  have hon : cs.online = payers.map (fun s => nullify p pk sk s.uid s.amount s.ty) ++ [root] ++
      payees.map (fun t => commit p t.pk t.blind t.amount t.ty) ++ [fee] ++ foldPub := by
    rw [online_mono mo, ← h.map]
    rfl
  obtain ⟨s, rest, rfl⟩ := List.exists_cons_of_ne_nil hne
  refine ⟨u, cs, _, e, rfl, ?_, ?_, (new_has.2.mono WF.new mo).2⟩
  · rw [hon, (hg s (by simp)).root]
  · rw [(hg s (by simp)).root, ← hon]
    exact hs

/-! ### The circuit does not depend on the witness -/

omit [DecidableEq F] [ScalarRepr F] p in
theorem uniform_pkVars (k k' : PK F) : Uniform (· = ·) (pkVars k) (pkVars k') := by
  unfold pkVars
  refine Uniform.bind (uniform_newVar _ _) (fun a _ e => ?_); subst e
  refine Uniform.bind (uniform_newVar _ _) (fun a _ e => ?_); subst e
  refine Uniform.bind (uniform_newVar _ _) (fun a _ e => ?_); subst e
  exact Uniform.pure _ _ rfl

omit [DecidableEq F] [ScalarRepr F] in
theorem uniform_commitInCs (a b c : Nat) (pk : PK Nat) :
    Uniform (· = ·) (commitInCs p a b c pk) (commitInCs p a b c pk) := by
  unfold commitInCs
  refine Uniform.bind (uniform_rescueCircuit p _) (fun a _ e => ?_); subst e
  refine Uniform.bind (uniform_rescueCircuit p _) (fun a _ e => ?_); subst e
  exact Uniform.pure _ _ rfl

/-- C67: the circuit depends only on the number of inputs and outputs, the lengths of the paths and the fee type: two
runs with other witnesses, started on systems of the same shape, both panic or give systems of the same shape. -/
theorem C67_transfer_uniform {α : Type} (folding folding' : PK Nat → SK Nat → Build F α)
    (hfold : ∀ pk sk, Uniform (· = ·) (folding pk sk) (folding' pk sk))
    (payers payers' : List (Payer F)) (payees payees' : List (Payee F)) (pk pk' : PK F) (sk sk' : SK F)
    (fee fee' feeType : F) (h : payers.map (fun s => s.path.length) = payers'.map (fun s => s.path.length))
    (h' : payees.length = payees'.length) :
    Uniform (· = ·) (buildMultiXfr p folding payers payees pk sk fee feeType)
      (buildMultiXfr p folding' payers' payees' pk' sk' fee' feeType) := by
  have hf : List.Forall₂ (fun a b : Payer F => a.path.length = b.path.length) payers payers' := by
    induction payers generalizing payers' with
    | nil => cases payers' with
      | nil => exact .nil
      | cons => simp at h
    | cons n ns ih => cases payers' with
      | nil => simp at h
      | cons m ms =>
        simp only [List.map_cons, List.cons.injEq] at h
        exact .cons h.1 (ih ms h.2)
  have hf' : List.Forall₂ (fun _ _ : Payee F => True) payees payees' := by
    induction payees generalizing payees' with
    | nil => cases payees' with
      | nil => exact .nil
      | cons => simp at h'
    | cons n ns ih => cases payees' with
      | nil => simp at h'
      | cons m ms => exact .cons trivial (ih ms (by simpa using h'))
  have hc : (payers = [] ∨ payees = []) ↔ (payers' = [] ∨ payees' = []) := by
    have e1 := hf.length_eq
    rw [← List.length_eq_zero_iff, ← List.length_eq_zero_iff, ← List.length_eq_zero_iff, ← List.length_eq_zero_iff, e1, h']
  unfold buildMultiXfr
  by_cases hcc : payers = [] ∨ payees = []
  · rw [if_pos hcc, if_pos (hc.mp hcc)]
    exact Uniform.failure _
  rw [if_neg hcc, if_neg (fun h => hcc (hc.mpr h))]
  refine Uniform.bind (Uniform.mapM₂ _ _ _ hf (fun a b hab => ?_)) (fun pvs _ e => ?_)
  · unfold payerVars
    refine Uniform.bind (uniform_newVar _ _) (fun a _ e => ?_); subst e
    refine Uniform.bind (uniform_newVar _ _) (fun a _ e => ?_); subst e
    refine Uniform.bind (uniform_newVar _ _) (fun a _ e => ?_); subst e
    refine Uniform.bind (uniform_addMerklePath _ _ hab) (fun a _ e => ?_); subst e
    refine Uniform.bind (uniform_newVar _ _) (fun a _ e => ?_); subst e
    exact Uniform.pure _ _ rfl
  subst e
  refine Uniform.bind (Uniform.mapM₂ _ _ _ hf' (fun a b _ => ?_)) (fun qvs _ e => ?_)
  · unfold payeeVars
    refine Uniform.bind (uniform_newVar _ _) (fun a _ e => ?_); subst e
    refine Uniform.bind (uniform_newVar _ _) (fun a _ e => ?_); subst e
    refine Uniform.bind (uniform_newVar _ _) (fun a _ e => ?_); subst e
    refine Uniform.bind (uniform_pkVars _ _) (fun a _ e => ?_); subst e
    exact Uniform.pure _ _ rfl
  subst e
  refine Uniform.bind (uniform_pkVars _ _) (fun pkv _ e => ?_); subst e
  refine Uniform.bind (uniform_newVar _ _) (fun s0 _ e => ?_); subst e
  refine Uniform.bind (uniform_newVar _ _) (fun s1 _ e => ?_); subst e
  refine Uniform.bind (Uniform.foldlM (ρ := (· = ·)) _ _ _ (fun a b x hx e => ?_) _ _ rfl) (fun root _ e => ?_)
  · subst e
    unfold payerStep
    refine Uniform.bind (uniform_commitInCs p _ _ _ _) (fun c _ e => ?_); subst e
    refine Uniform.bind (uniform_linearCombine _ _ _ _ _ _ _ _) (fun c _ e => ?_); subst e
    refine Uniform.bind (m := nullifyInCs p _ _ _ _) (ρ := (· = ·)) ?_ (fun c _ e => ?_)
    · unfold nullifyInCs
      refine Uniform.bind (uniform_rescueCircuit p _) (fun a _ e => ?_); subst e
      refine Uniform.bind (uniform_rescueCircuit p _) (fun a _ e => ?_); subst e
      exact Uniform.pure _ _ rfl
    subst e
    refine Uniform.bind (uniform_merkleRootVars p _ _ _) (fun c _ e => ?_); subst e
    refine Uniform.bind (uniform_rangeCheck _ _) (fun c _ e => ?_); subst e
    refine Uniform.bind (m := checkRoot a _) (ρ := (· = ·)) ?_ (fun c _ e => ?_)
    · unfold checkRoot
      cases a with
      | none => exact Uniform.pure _ _ rfl
      | some x => exact Uniform.bind (uniform_equalV _ _) (fun _ _ _ => Uniform.pure _ _ rfl)
    subst e
    refine Uniform.bind (uniform_preparePi _) (fun _ _ _ => ?_)
    exact Uniform.pure _ _ rfl
  subst e
  refine Uniform.bind (Uniform.liftM root) (fun rv _ e => ?_); subst e
  refine Uniform.bind (uniform_preparePi _) (fun _ _ _ => ?_)
  refine Uniform.bind (Uniform.foldlM (ρ := (· = ·)) _ _ _ (fun a b x hx e => ?_) _ _ rfl) (fun _ _ _ => ?_)
  · unfold payeeStep
    refine Uniform.bind (uniform_commitInCs p _ _ _ _) (fun c _ e => ?_); subst e
    refine Uniform.bind (uniform_rangeCheck _ _) (fun c _ e => ?_); subst e
    exact uniform_preparePi _
  refine Uniform.bind (uniform_newVar _ _) (fun fv _ e => ?_); subst e
  refine Uniform.bind (uniform_preparePi _) (fun _ _ _ => ?_)
  refine Uniform.bind (hfold _ _) (fun fo _ e => ?_); subst e
  refine Uniform.bind (C51_mixing_uniform _ _ _ _) (fun _ _ _ => ?_)
  exact Uniform.bind uniform_pad (fun _ _ _ => Uniform.pure _ _ rfl)

/-! ### Inflation -/

omit [DecidableEq F] [ScalarRepr F] p in
/-- systems of the same shape are satisfied by the same assignments -/
theorem Sat.shape {cs cs' : CS F} (h : cs.shape = cs'.shape) {w : Nat → F} {online : List F} (hs : Sat cs' w online) :
    Sat cs w online := by
  simp only [CS.shape, CS.mk.injEq] at h
  obtain ⟨e1, e2, e3, e4, e5, -⟩ := h
  intro i g hg
  have := hs i g
  simp only [← e1, ← e2, ← e3, ← e4, ← e5] at this
  exact this hg

/-- C67 fails without the hypothesis on `one_var`.  Take any payers and payees of the fee type with any 64-bit amounts
whatsoever, paths to one root, and any fee.  The circuit the verifier builds (with any witness of the same shape) is
satisfied, for the public inputs of this transfer, by an assignment.  Nothing relates the amounts: the transfer may
create money. -/
theorem C67_transfer_unsound (hp : GoodParams p) {α : Type} (folding folding' : PK Nat → SK Nat → Build F α)
    (hu : ∀ pk sk, Uniform (· = ·) (folding' pk sk) (folding pk sk)) (payers payers' : List (Payer F))
    (payees payees' : List (Payee F)) (pk pk' : PK F) (sk sk' : SK F) (fee fee' feeType root : F) (foldPub : List F)
    (hfold : ∀ cs pkv skv, Has cs 0 0 → HasPk cs pkv pk → HasSk cs skv sk →
      RunsP (folding pkv skv) cs (fun _ cs' pv => HasList cs' pv foldPub))
    (hne : payers ≠ []) (hne' : payees ≠ []) (hg : ∀ s ∈ payers, GoodPayer p pk root s)
    (hg' : ∀ t ∈ payees, ScalarRepr.val t.amount < 2 ^ 64)
    (hty : ∀ s ∈ payers, s.ty = feeType) (hty' : ∀ t ∈ payees, t.ty = feeType)
    (h : payers'.map (fun s => s.path.length) = payers.map (fun s => s.path.length))
    (h' : payees'.length = payees.length) :
    ∃ vars cs pubs w, buildMultiXfr p folding' payers' payees' pk' sk' fee' feeType CS.new = some (vars, cs) ∧
      pubInputs p pk sk payers payees fee = some pubs ∧ (pubs ++ foldPub).length = cs.pubVars.length ∧
      Sat cs w (pubs ++ foldPub) := by
  have z0 : Has (newWrong : CS F) 0 0 := ⟨by simp [newWrong, CS.new], by simp [CS.value, newWrong, CS.new]⟩
  have z1 : Has (newWrong : CS F) 1 0 := ⟨by simp [newWrong, CS.new], by simp [CS.value, newWrong, CS.new]⟩
  obtain ⟨u, cs', pv, e, hw, hs, mo, hl, -⟩ := runs_buildMultiXfr p hp folding payers payees pk sk fee feeType 0 root foldPub
    (fun cs pkv skv a _ b c => hfold cs pkv skv a b c) hne hne' hg hg' (.inr ⟨rfl, hty, hty'⟩) newWrong z0 z1
    WF.newWrong newWrong_hsat
  have hon : cs'.online = payers.map (fun s => nullify p pk sk s.uid s.amount s.ty) ++ [root] ++
      payees.map (fun t => commit p t.pk t.blind t.amount t.ty) ++ [fee] ++ foldPub := by
    rw [online_mono mo, ← hl.map]
    rfl
  have huni := C67_transfer_uniform p folding' folding hu payers' payers payees' payees pk' pk sk' sk fee' fee feeType h h'
    CS.new newWrong rfl
  rw [e] at huni
  cases hcs : buildMultiXfr p folding' payers' payees' pk' sk' fee' feeType (CS.new : CS F) with
  | none => rw [hcs] at huni; cases huni
  | some r =>
    rw [hcs] at huni
    cases huni with
    | some huni =>
    obtain ⟨vars, cs⟩ := r
    have hsh : cs.shape = cs'.shape := huni.2
    obtain ⟨s, rest, rfl⟩ := List.exists_cons_of_ne_nil hne
    refine ⟨vars, cs, _, cs'.value, rfl, rfl, ?_, ?_⟩
    · rw [(hg s (by simp)).root, ← hon]
      have : cs.pubVars = cs'.pubVars := (show cs.shape.pubVars = cs'.shape.pubVars by rw [hsh])
      rw [this]
      simp [CS.online]
    · rw [(hg s (by simp)).root, ← hon]
      exact Sat.shape hsh hs

end Verif.Anon
