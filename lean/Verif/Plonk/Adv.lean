import Lean.Elab.Tactic
import Verif.Plonk.RescueGadget

/-!
Proof automation for honest runs, and lemmas about builders that map over lists.
-/

namespace Verif.Plonk

open Spec

/-- `adv w m` transports every hypothesis of the form `P.. cs ..` that has a lemma `P.mono` along the extension
`m : Mono cs cs' pv`, where `w : WF cs`. -/
elab "adv" w:ident m:ident : tactic => do
  Lean.Elab.Tactic.withMainContext do
    let mfv ← Lean.Elab.Tactic.getFVarId m
    let mt ← Lean.instantiateMVars (← mfv.getType)
    let args := mt.getAppArgs
    let cs := args[args.size - 3]!
    for d in (← Lean.getLCtx) do
      if d.isImplementationDetail then continue
      let t ← Lean.instantiateMVars d.type
      let f := t.getAppFn
      if f.isConst && (t.getAppArgs.any (· == cs)) then
        let n := f.constName! ++ `mono
        if f.constName! != ``Mono && f.constName! != ``Sat && f.constName! != ``WF && (← Lean.getEnv).contains n then
          let id := Lean.mkIdent d.userName
          let nid := Lean.mkIdent n
          Lean.Elab.Tactic.evalTactic (← `(tactic| replace $id:ident := $nid $w $m $id))

variable {F : Type} [Field F]

theorem Runs.withWF {α : Type} {m : Build F α} {cs : CS F} {Q : α → CS F → Prop} (h : WF cs → Runs m cs Q) :
    Runs m cs Q := fun hw hs => h hw hw hs

/-- sequencing a builder that makes nothing public with one that may -/
theorem RunsP.bindR {α β : Type} {m : Build F α} {f : α → Build F β} {cs : CS F} {Q : α → CS F → Prop}
    {Q' : β → CS F → List Nat → Prop} (h : Runs m cs Q)
    (hf : ∀ a cs1, WF cs → WF cs1 → Mono cs cs1 [] → Q a cs1 → RunsP (f a) cs1 Q') : RunsP (m >>= f) cs Q' := by
  refine RunsP.bind h (fun a cs1 pv w0 w1 mo q => ?_)
  obtain ⟨rfl, q⟩ := q
  exact RunsP.cons (hf a cs1 w0 w1 mo q) (fun b cs' pv' _ _ _ q' => by simpa using q')

theorem runs_newVar_idx (f : (Nat → F) → F) (cs : CS F) :
    Runs (newVar f) cs (fun o cs' => o = cs.numVars ∧ cs'.numVars = cs.numVars + 1 ∧ Has cs' o (f cs.value)) := by
  intro hw hs
  obtain ⟨a, cs', pv, e, w', s', mo, hpv, h⟩ := runs_newVar f cs hw hs
  refine ⟨a, cs', pv, e, w', s', mo, hpv, ?_, ?_, h⟩
  · unfold newVar at e
    simp only [Option.some.injEq, Prod.mk.injEq] at e
    exact e.1.symm
  · unfold newVar at e
    simp only [Option.some.injEq, Prod.mk.injEq] at e
    rw [← e.2]

/-- the stored public inputs after a run -/
theorem online_mono {cs cs' : CS F} {pv : List Nat} (h : Mono cs cs' pv) :
    CS.online cs' = (cs.pubVars ++ pv).map cs'.value := by
  unfold CS.online
  rw [h.pub]

theorem Sound.mapM {α β : Type} (f : α → Build F β) (R : (Nat → F) → α → β → Prop) (l : List α)
    (h : ∀ a ∈ l, Sound (f a) (fun w b => R w a b)) :
    Sound (l.mapM f) (fun w bs => List.Forall₂ (R w) l bs) := by
  induction l with
  | nil =>
    rw [List.mapM_nil]
    exact Sound.pure _ _ (fun w => List.Forall₂.nil)
  | cons a l ih =>
    rw [List.mapM_cons]
    refine Sound.bind (h a (by simp)) (fun b => Sound.bind (ih (fun x hx => h x (by simp [hx]))) (fun bs => ?_))
    exact Sound.pure _ _ (fun w h1 h2 => List.Forall₂.cons h2 h1)

theorem Runs.mapM {α β : Type} (f : α → Build F β) (Q : CS F → α → β → Prop)
    (hmono : ∀ cs cs' a b, WF cs → Mono cs cs' [] → Q cs a b → Q cs' a b) (l : List α) (cs0 : CS F)
    (hstep : ∀ cs a, a ∈ l → Mono cs0 cs [] → WF cs → Runs (f a) cs (fun b cs' => Q cs' a b)) :
    Runs (l.mapM f) cs0 (fun bs cs' => List.Forall₂ (Q cs') l bs) := by
  suffices H : ∀ (l' : List α) (cs : CS F), (∀ a ∈ l', a ∈ l) → Mono cs0 cs [] →
      Runs (l'.mapM f) cs (fun bs cs' => List.Forall₂ (Q cs') l' bs) from H l cs0 (fun _ h => h) (Mono.refl _)
  intro l'
  induction l' with
  | nil =>
    intro cs _ _
    rw [List.mapM_nil]
    exact Runs.pure _ _ _ List.Forall₂.nil
  | cons a l' ih =>
    intro cs hsub mo hw hs
    rw [List.mapM_cons]
    refine Runs.bind (hstep cs a (hsub a (by simp)) mo hw) ?_ hw hs
    intro b cs1 w0 w1 m1 hb
    refine Runs.bind (ih cs1 (fun x hx => hsub x (by simp [hx])) (mo.trans m1)) ?_
    intro bs cs2 _ w2 m2 hbs
    exact Runs.pure _ _ _ (List.Forall₂.cons (hmono _ _ _ _ w1 m2 hb) hbs)

theorem Uniform.mapM {α β : Type} (f g : α → Build F β) (l : List α)
    (h : ∀ a ∈ l, Uniform (· = ·) (f a) (g a)) : Uniform (· = ·) (l.mapM f) (l.mapM g) := by
  induction l with
  | nil =>
    rw [List.mapM_nil, List.mapM_nil]
    exact Uniform.pure _ _ rfl
  | cons a l ih =>
    rw [List.mapM_cons, List.mapM_cons]
    refine Uniform.bind (h a (by simp)) (fun b _ e => ?_); subst e
    refine Uniform.bind (ih (fun x hx => h x (by simp [hx]))) (fun bs _ e => ?_); subst e
    exact Uniform.pure _ _ rfl

/-- maps over lists of the same shape -/
theorem Uniform.mapM₂ {α β : Type} (f g : α → Build F β) (S : α → α → Prop) {l l' : List α} (hl : List.Forall₂ S l l')
    (h : ∀ a b, S a b → Uniform (· = ·) (f a) (g b)) : Uniform (· = ·) (l.mapM f) (l'.mapM g) := by
  induction hl with
  | nil =>
    rw [List.mapM_nil, List.mapM_nil]
    exact Uniform.pure _ _ rfl
  | cons hab _ ih =>
    rw [List.mapM_cons, List.mapM_cons]
    refine Uniform.bind (h _ _ hab) (fun b _ e => ?_); subst e
    refine Uniform.bind ih (fun bs _ e => ?_); subst e
    exact Uniform.pure _ _ rfl

/-- loops that make variables public -/
theorem SoundP.foldlM {α β : Type} (f : α → β → Build F α) (I : (Nat → F) → List β → α → List Nat → Prop) (l : List β)
    (a0 : α) (hstep : ∀ pre a b, b ∈ l → SoundP (f a b) (fun w a' pv => ∀ pv0, I w pre a pv0 →
      I w (pre ++ [b]) a' (pv0 ++ pv))) :
    SoundP (l.foldlM f a0) (fun w a pv => I w [] a0 [] → I w l a pv) := by
  suffices H : ∀ (l' pre : List β) (a : α), (∀ b ∈ l', b ∈ l) →
      SoundP (l'.foldlM f a) (fun w r pv => ∀ pv0, I w pre a pv0 → I w (pre ++ l') r (pv0 ++ pv)) by
    refine (H l [] a0 (fun _ h => h)).cons ?_
    intro w a pv h h0
    simpa using h [] h0
  intro l'
  induction l' with
  | nil =>
    intro pre a _
    exact SoundP.pure a _ (fun w pv0 h => by simpa using h)
  | cons b l' ih =>
    intro pre a hsub
    rw [List.foldlM_cons]
    refine SoundP.bind (hstep pre a b (hsub b (by simp))) (fun a' => ?_)
    refine (ih (pre ++ [b]) a' (fun x hx => hsub x (by simp [hx]))).cons ?_
    intro w r pv h pv1 h1 pv0 h0
    have := h (pv0 ++ pv1) (h1 pv0 h0)
    simpa using this

theorem RunsP.foldlM {α β : Type} (f : α → β → Build F α) (I : CS F → List β → α → List Nat → Prop)
    (l : List β) (a0 : α) (cs0 : CS F) (h0 : I cs0 [] a0 [])
    (hstep : ∀ cs pre a b post pv0, Mono cs0 cs pv0 → l = pre ++ b :: post → WF cs → I cs pre a pv0 →
      RunsP (f a b) cs (fun a' cs' pv => I cs' (pre ++ [b]) a' (pv0 ++ pv))) :
    RunsP (l.foldlM f a0) cs0 (fun a cs' pv => I cs' l a pv) := by
  suffices H : ∀ (l' pre : List β) (a : α) (cs : CS F) (pv0 : List Nat), l = pre ++ l' → Mono cs0 cs pv0 →
      I cs pre a pv0 → RunsP (l'.foldlM f a) cs (fun r cs' pv => I cs' l r (pv0 ++ pv)) by
    refine (H l [] a0 cs0 [] rfl (Mono.refl _) h0).cons ?_
    intro a cs' pv _ _ _ h
    simpa using h
  intro l'
  induction l' with
  | nil =>
    intro pre a cs pv0 e _ h
    rw [List.append_nil] at e
    subst e
    exact RunsP.pure a cs _ (by simpa using h)
  | cons b l' ih =>
    intro pre a cs pv0 e mo h
    rw [List.foldlM_cons]
    intro hw hs
    refine RunsP.bind (hstep cs pre a b l' pv0 mo e hw h) (fun a' cs1 pv1 _ w1 mo1 q => ?_) hw hs
    refine (ih (pre ++ [b]) a' cs1 (pv0 ++ pv1) (by simp [e]) (mo.trans mo1) q).cons ?_
    intro r cs' pv _ _ _ h
    simpa using h

theorem RunsP.withWF {α : Type} {m : Build F α} {cs : CS F} {Q : α → CS F → List Nat → Prop}
    (h : WF cs → RunsP m cs Q) : RunsP m cs Q := fun hw hs => h hw hw hs

/-- a builder that makes nothing public, before one that may -/
theorem SoundP.bindS {α β : Type} {m : Build F α} {f : α → Build F β} {R : (Nat → F) → α → Prop}
    {R' : (Nat → F) → β → List Nat → Prop} (h : Sound m R)
    (hf : ∀ a, SoundP (f a) (fun w b pv => R w a → R' w b pv)) : SoundP (m >>= f) R' := by
  refine SoundP.bind h (fun a => (hf a).cons ?_)
  rintro w b pv h pv0 ⟨rfl, hr⟩
  simpa using h hr

/-- two facts about the same builder -/
theorem SoundP.and {α : Type} {m : Build F α} {R R' : (Nat → F) → α → List Nat → Prop} (h : SoundP m R)
    (h' : SoundP m R') : SoundP m (fun w a pv => R w a pv ∧ R' w a pv) := by
  intro cs a cs' hw hm
  obtain ⟨w1, pv, mo, s⟩ := h cs a cs' hw hm
  obtain ⟨_, pv', mo', s'⟩ := h' cs a cs' hw hm
  have : pv' = pv := List.append_cancel_left (mo'.pub.symm.trans mo.pub)
  subst this
  exact ⟨w1, pv', mo, fun w on hs => ⟨s w on hs, s' w on hs⟩⟩

theorem Sound.and {α : Type} {m : Build F α} {R R' : (Nat → F) → α → Prop} (h : Sound m R)
    (h' : Sound m R') : Sound m (fun w a => R w a ∧ R' w a) :=
  (SoundP.and h h').cons (fun _ _ _ ⟨h1, h2⟩ => ⟨h1.1, h1.2, h2.2⟩)

/-- without an assumption on the constants -/
theorem sound_isEqualOrNotEqual_raw (l r : Nat) :
    Sound (isEqualOrNotEqual l r : Build F (Nat × Nat)) (fun w p => w l = w r → w 0 = 0) := by
  unfold isEqualOrNotEqual
  refine Sound.bind (sound_subV l r) (fun diff => ?_)
  refine Sound.bind (sound_newVar _) (fun inv => ?_)
  refine Sound.bind (sound_mulV diff inv) (fun m => ?_)
  refine Sound.bind (sound_subV oneVar m) (fun z => ?_)
  refine Sound.bind (sound_insertMulGate diff z zeroVar) (fun _ => Sound.pure _ _ ?_)
  intro w h5 _ _ _ h1 he
  unfold zeroVar at h5
  rw [h5, h1, he]; simp

/-- an honest run whatever the value `u` of variable one, if the compared values agree or `u = 1` -/
theorem runs_isEqualOrNotEqual_u [DecidableEq F] (l r : Nat) (x y u : F) (cs : CS F) (h0 : Has cs 0 0)
    (h1 : Has cs 1 u) (hl : Has cs l x) (hr : Has cs r y) (hu : x ≠ y → u = 1) :
    Runs (isEqualOrNotEqual l r) cs (fun p cs' =>
      Has cs' p.1 (if x = y then u else 0) ∧ Has cs' p.2 (if x = y then 0 else u)) := by
  by_cases hxy : x = y
  · subst hxy
    unfold isEqualOrNotEqual
    refine Runs.bind (runs_subV l r x x cs hl hr) ?_
    intro d cs1 w0 w1 mo1 hd
    adv w0 mo1
    refine Runs.bind (runs_newVar _ _) ?_
    intro i cs2 _ w2 mo2 hi
    rw [hd.2] at hi
    adv w1 mo2
    refine Runs.bind (runs_mulV d i _ _ cs2 hd hi) ?_
    intro m cs3 _ w3 mo3 hm
    adv w2 mo3
    refine Runs.bind (runs_subV oneVar m u _ cs3 h1 hm) ?_
    intro z cs4 _ w4 mo4 hz
    adv w3 mo4
    refine Runs.bind (runs_insertMulGate d z zeroVar _ _ _ cs4 hd hz h0 (by simp)) ?_
    intro _ cs5 _ w5 mo5 _
    adv w4 mo5
    refine Runs.pure _ _ _ ⟨?_, ?_⟩
    · simpa using hz
    · simpa using hm
  · have := hu hxy
    subst this
    exact runs_isEqualOrNotEqual l r x y cs h0 h1 hl hr

end Verif.Plonk
