import Verif.Crypto.ConfidentialCreds
import Verif.Crypto.DelegatedSchnorr
import Verif.Crypto.PedersenElGamal
import Mathlib.Tactic.FieldSimp
import Mathlib.Tactic.LinearCombination

/-!
C82: what the challenges of the Fiat–Shamir proofs depend on.

The challenge is the value of the oracle at the transcript (`challengePoint`, `eqPoint`, `point1`, `openPoint`, …: the points that
occur in the theorems which say what the verifiers check, C34–C36, C40, C41, C65).  A challenge binds a value if the value can be
read off the transcript: equal transcripts have equal values.  The transcripts are lists of messages; merlin frames every message
with its label and length.
-/

namespace Verif.Binding

/-- A list is cut in one way only at the last element outside of `p`. -/
theorem cut {α : Type} (p : α → Prop) {a a' s s' : List α} {x x' : α} (hs : ∀ y ∈ s, p y) (hs' : ∀ y ∈ s', p y) (hx : ¬ p x)
    (hx' : ¬ p x') (h : a ++ x :: s = a' ++ x' :: s') : a = a' ∧ x = x' ∧ s = s' := by
  rcases List.append_eq_append_iff.mp h with ⟨t, h1, h2⟩ | ⟨t, h1, h2⟩
  · cases t with
    | nil => simp at h1 h2; exact ⟨h1.symm, h2.1, h2.2⟩
    | cons y t =>
      simp only [List.cons_append, List.cons.injEq] at h2
      exact absurd (hs x' (by rw [h2.2]; simp)) hx'
  · cases t with
    | nil => simp at h1 h2; exact ⟨h1, h2.1.symm, h2.2.symm⟩
    | cons y t =>
      simp only [List.cons_append, List.cons.injEq] at h2
      exact absurd (hs' x (by rw [h2.2]; simp)) hx

/-- Two lists with messages of different kinds, one after the other. -/
theorem two_kinds {α β γ : Type} {f : α → γ} {g : β → γ} (hf : Function.Injective f) (hg : Function.Injective g)
    (hfg : ∀ a b, f a ≠ g b) {a a' : List α} {b b' : List β} (h : a.map f ++ b.map g = a'.map f ++ b'.map g) :
    a = a' ∧ b = b' := by
  induction a generalizing a' with
  | nil =>
    cases a' with
    | nil => exact ⟨rfl, List.map_injective_iff.mpr hg (by simpa using h)⟩
    | cons x a' =>
      cases b with
      | nil => simp at h
      | cons y b => simp at h; exact absurd h.1.symm (hfg _ _)
  | cons x a ih =>
    cases a' with
    | nil =>
      cases b' with
      | nil => simp at h
      | cons y b => simp at h; exact absurd h.1 (hfg _ _)
    | cons x' a' =>
      simp only [List.map_cons, List.cons_append, List.cons.injEq] at h
      obtain ⟨h1, h2⟩ := ih h.2
      exact ⟨by rw [hf h.1, h1], h2⟩

/-- Pairs of messages, then messages of another kind. -/
theorem flatMap_pairs {α γ : Type} {f : α → List γ} {P : α → γ × γ} (hf : ∀ a, f a = [(P a).1, (P a).2])
    (hP : Function.Injective P) {a a' : List α} (h : a.flatMap f = a'.flatMap f) : a = a' := by
  induction a generalizing a' with
  | nil =>
    cases a' with
    | nil => rfl
    | cons x a' => simp [hf] at h
  | cons x a ih =>
    cases a' with
    | nil => simp [hf] at h
    | cons x' a' =>
      simp only [List.flatMap_cons, hf, List.cons_append, List.nil_append, List.cons.injEq] at h
      have e : (fun a => [(P a).1, (P a).2]) = f := by funext a; rw [hf]
      rw [ih (by simpa only [e, hf] using h.2.2), hP (Prod.ext h.1 h.2.1)]

end Verif.Binding

/-! ### The matrix protocol and its uses -/

namespace Verif.Sigma

open Verif.Binding

variable {F G : Type} [Field F] [AddCommGroup G] [Module F G]

omit [Field F] [AddCommGroup G] [Module F G] in
/-- C82: the challenge of the matrix protocol binds everything before it, the public elements and the prover's commitments. -/
theorem C82_sigma_binds (tr tr' : Tr F G) (elems elems' coms coms' : List G)
    (h : challengePoint tr elems coms = challengePoint tr' elems' coms') : tr = tr' ∧ elems = elems' ∧ coms = coms' := by
  simp only [challengePoint, initSigma, List.map_nil, List.append_nil, List.append_assoc] at h
  have e : ∀ (t : Tr F G) (l : List (Msg F G)),
      t ++ ([Msg.label "Sigma protocol single group v.0.1", .label "New Sigma Protocol"] ++ l) =
        (t ++ [.label "Sigma protocol single group v.0.1"]) ++ .label "New Sigma Protocol" :: l := by simp
  rw [e, e] at h
  obtain ⟨h1, -, h3⟩ := cut (fun m : Msg F G => ∀ s, m ≠ .label s) (by simp; grind) (by simp; grind) (by simp) (by simp) h
  obtain ⟨h4, h5⟩ := two_kinds (by intro a b; simp) (by intro a b; simp) (by simp) h3
  exact ⟨by simpa using h1, h4, h5⟩

omit [Field F] [AddCommGroup G] [Module F G] in
/-- the same for the messages that start a protocol -/
theorem initSigma_inj (tr tr' : Tr F G) (name name' : String) (elems elems' : List G)
    (h : initSigma tr name [] elems = initSigma tr' name' [] elems') : tr = tr' ∧ name = name' ∧ elems = elems' := by
  simp only [initSigma, List.map_nil, List.append_nil, List.append_assoc] at h
  have e : ∀ (t : Tr F G) (n : String) (l : List (Msg F G)),
      t ++ ([Msg.label "Sigma protocol single group v.0.1", .label n] ++ l) =
        (t ++ [.label "Sigma protocol single group v.0.1"]) ++ .label n :: l := by simp
  rw [e, e] at h
  obtain ⟨h1, h2, h3⟩ := cut (fun m : Msg F G => ∀ s, m ≠ .label s) (by simp) (by simp) (by simp) (by simp) h
  refine ⟨by simpa using h1, by simpa using h2, ?_⟩
  exact List.map_injective_iff.mpr (by intro a b; simp) h3

end Verif.Sigma

namespace Verif.ChaumPedersen

open Verif.Binding Verif.Sigma

variable {F G : Type} [Field F] [AddCommGroup G] [Module F G]

omit [Field F] [Module F G] in
/-- C82: the challenge of the equality proof binds what is before it, the generators, both commitments and the prover's messages. -/
theorem C82_equality_binds (g g' : Gens G) (tr tr' : Tr F G) (c1 c2 c1' c2' : G) (p p' : Proof F G)
    (h : eqPoint g tr c1 c2 p = eqPoint g' tr' c1' c2' p') :
    tr = tr' ∧ g = g' ∧ c1 = c1' ∧ c2 = c2' ∧ p.c3 = p'.c3 ∧ p.c4 = p'.c4 := by
  obtain ⟨h1, h2, h3⟩ := C82_sigma_binds _ _ _ _ _ _ h
  simp only [elems, List.cons.injEq, and_true, true_and] at h2 h3
  obtain ⟨b, bb⟩ := g
  obtain ⟨b', bb'⟩ := g'
  simp only [Gens.mk.injEq]
  exact ⟨by simpa [initTr] using h1, ⟨h2.1, h2.2.1⟩, h2.2.2.1, h2.2.2.2, h3.1, h3.2⟩

omit [Field F] [AddCommGroup G] [Module F G] in
theorem challenges_tr (H : Tr F G → F) (n : Nat) (tr : Tr F G) : (challenges H tr n).2 = tr ++ List.replicate n .challenge := by
  induction n generalizing tr with
  | zero => simp [challenges]
  | succ n ih => simp [challenges, ih, getChallenge, List.replicate_succ]

omit [AddCommGroup G] [Module F G] in
theorem lcScalars_tr (H : Tr F G → F) (n : Nat) (tr : Tr F G) :
    (lcScalars H tr n).2 = tr ++ List.replicate (n - 1) .challenge := by
  unfold lcScalars
  split
  · rename_i h; simp [h]
  · exact challenges_tr H _ tr

omit [Field F] [AddCommGroup G] [Module F G] in
/-- challenges drawn after a message that is no challenge -/
theorem drawn_inj {a a' : Tr F G} {x x' : Msg F G} {n n' : Nat} (hx : x ≠ .challenge) (hx' : x' ≠ .challenge)
    (h : (a ++ [x]) ++ List.replicate n .challenge = (a' ++ [x']) ++ List.replicate n' .challenge) :
    a ++ [x] = a' ++ [x'] ∧ n = n' := by
  simp only [List.append_assoc, List.singleton_append] at h
  obtain ⟨h1, h2, h3⟩ := cut (fun m : Msg F G => m = .challenge) (by intro y hy; exact List.eq_of_mem_replicate hy)
    (by intro y hy; exact List.eq_of_mem_replicate hy) hx hx' h
  refine ⟨by rw [h1, h2], ?_⟩
  simpa using congrArg List.length h3

omit [Field F] [Module F G] in
theorem eqPoint_last (g : Gens G) (tr : Tr F G) (c1 c2 : G) (p : Proof F G) :
    ∃ a, eqPoint g tr c1 c2 p = a ++ [Msg.commitment p.c4] := by
  refine ⟨initSigma (initTr tr) "New Sigma Protocol" [] (elems g c1 c2) ++ [.commitment p.c3], ?_⟩
  simp [eqPoint, challengePoint]

omit [Module F G] in
/-- C82: in the proof for several commitments the first challenge binds all the commitments, and the second one the commitments,
the messages of the first proof and those of the second one.  The random coefficients are drawn after the messages of the first
proof and before the second one. -/
theorem C82_multiple_binds (H H' : Tr F G → F) (g g' : Gens G) (tr tr' : Tr F G) (c0 c1 c0' c1' : G) (rest rest' : List G)
    (p p' q q' : Proof F G) (d d' : G) :
    let first := fun (g : Gens G) (tr : Tr F G) (c0 c1 : G) (rest : List G) (p : Proof F G) =>
      eqPoint g (initMultiple g tr (c0 :: c1 :: rest)) c0 c1 p
    let second := fun (H : Tr F G → F) (g : Gens G) (tr : Tr F G) (c0 c1 : G) (rest : List G) (p q : Proof F G) (d : G) =>
      eqPoint g (lcScalars H (first g tr c0 c1 rest p ++ [.challenge]) rest.length).2 d 0 q
    (first g tr c0 c1 rest p = first g' tr' c0' c1' rest' p' →
      tr = tr' ∧ g = g' ∧ c0 = c0' ∧ c1 = c1' ∧ rest = rest' ∧ p.c3 = p'.c3 ∧ p.c4 = p'.c4) ∧
    (second H g tr c0 c1 rest p q d = second H' g' tr' c0' c1' rest' p' q' d' →
      tr = tr' ∧ g = g' ∧ c0 = c0' ∧ c1 = c1' ∧ rest = rest' ∧ p.c3 = p'.c3 ∧ p.c4 = p'.c4 ∧ d = d' ∧ q.c3 = q'.c3 ∧
        q.c4 = q'.c4) := by
  intro first second
  have hfirst : ∀ (g g' : Gens G) (tr tr' : Tr F G) (c0 c1 c0' c1' : G) (rest rest' : List G) (p p' : Proof F G),
      first g tr c0 c1 rest p = first g' tr' c0' c1' rest' p' →
      tr = tr' ∧ g = g' ∧ c0 = c0' ∧ c1 = c1' ∧ rest = rest' ∧ p.c3 = p'.c3 ∧ p.c4 = p'.c4 := by
    intro g g' tr tr' c0 c1 c0' c1' rest rest' p p' h
    obtain ⟨h1, h2, h3, h4, h5, h6⟩ := C82_equality_binds _ _ _ _ _ _ _ _ _ _ h
    obtain ⟨h7, -, h8⟩ := initSigma_inj _ _ _ _ _ _ h1
    simp only [List.cons.injEq] at h8
    exact ⟨h7, h2, h3, h4, h8.2.2.2.2, h5, h6⟩
  refine ⟨hfirst _ _ _ _ _ _ _ _ _ _ _ _, fun h => ?_⟩
  obtain ⟨h1, h2, h3, -, h5, h6⟩ := C82_equality_binds _ _ _ _ _ _ _ _ _ _ h
  simp only [first, lcScalars_tr] at h1
  obtain ⟨a, ha⟩ := eqPoint_last g (initMultiple g tr (c0 :: c1 :: rest)) c0 c1 p
  obtain ⟨a', ha'⟩ := eqPoint_last g' (initMultiple g' tr' (c0' :: c1' :: rest')) c0' c1' p'
  rw [ha, ha'] at h1
  have e : ∀ (b : Tr F G) (n : Nat), b ++ [Msg.challenge] ++ List.replicate n .challenge = b ++ List.replicate (n + 1) .challenge := by
    intro b n; simp [List.replicate_succ]
  rw [e, e] at h1
  obtain ⟨h7, -⟩ := drawn_inj (by simp) (by simp) h1
  rw [← ha, ← ha'] at h7
  obtain ⟨i1, i2, i3, i4, i5, i6, i7⟩ := hfirst _ _ _ _ _ _ _ _ _ _ _ _ h7
  exact ⟨i1, i2, i3, i4, i5, i6, i7, h3, h5, h6⟩

end Verif.ChaumPedersen

namespace Verif.PedersenElGamal

open Verif.Binding Verif.Sigma Verif.ChaumPedersen

variable {F G : Type} [Field F] [AddCommGroup G] [Module F G]

omit [AddCommGroup G] [Module F G] in
theorem flat_inj {cts cts' : List (Ctext G)} {coms coms' : List G} (hl : cts.length = coms.length) (hl' : cts'.length = coms'.length)
    (h : cts.flatMap (fun ct => [ct.e1, ct.e2]) ++ coms = cts'.flatMap (fun ct => [ct.e1, ct.e2]) ++ coms') :
    cts = cts' ∧ coms = coms' := by
  have hf : ∀ l : List (Ctext G), (l.flatMap (fun ct => [ct.e1, ct.e2])).length = 2 * l.length := by
    intro l; induction l with
    | nil => rfl
    | cons x l ih => simp [ih]; omega
  have h1 := congrArg List.length h
  simp only [List.length_append, hf] at h1
  obtain ⟨h2, h3⟩ := List.append_inj h (by rw [hf, hf]; omega)
  refine ⟨flatMap_pairs (P := fun ct => (ct.e1, ct.e2)) (fun _ => rfl) ?_ h2, h3⟩
  rintro ⟨a, b⟩ ⟨c, d⟩ h
  simpa using h

omit [Module F G] in
/-- C82: the first challenges of the aggregated proof (the random coefficients) are drawn after the key, all the ciphertexts and
all the commitments, and the last one binds all of these and the prover's messages. -/
theorem C82_aggregated_binds (H H' : Tr F G → F) (g g' : Gens G) (tr tr' : Tr F G) (pk pk' : G) (cts cts' : List (Ctext G))
    (coms coms' : List G) (hl : cts.length = coms.length) (hl' : cts'.length = coms'.length) (ct ct' : Ctext G) (com com' : G)
    (p p' : Proof F G) :
    (initAgg g tr pk cts coms = initAgg g' tr' pk' cts' coms' →
      tr = tr' ∧ g = g' ∧ pk = pk' ∧ cts = cts' ∧ coms = coms') ∧
    (eqPoint g (lcScalars H (initAgg g tr pk cts coms) cts.length).2 pk ct com p =
        eqPoint g' (lcScalars H' (initAgg g' tr' pk' cts' coms') cts'.length).2 pk' ct' com' p' →
      tr = tr' ∧ g = g' ∧ pk = pk' ∧ cts = cts' ∧ coms = coms' ∧ ct = ct' ∧ com = com' ∧ p.e1 = p'.e1 ∧ p.c1 = p'.c1) := by
  have hinit : initAgg g tr pk cts coms = initAgg g' tr' pk' cts' coms' →
      tr = tr' ∧ g = g' ∧ pk = pk' ∧ cts = cts' ∧ coms = coms' := by
    intro h
    obtain ⟨h1, -, h2⟩ := initSigma_inj _ _ _ _ _ _ h
    simp only [List.cons.injEq] at h2
    obtain ⟨h3, h4⟩ := flat_inj hl hl' h2.2.2.2
    obtain ⟨b, bb⟩ := g
    obtain ⟨b', bb'⟩ := g'
    simp only [Gens.mk.injEq]
    exact ⟨h1, ⟨h2.1, h2.2.1⟩, h2.2.2.1, h3, h4⟩
  refine ⟨hinit, fun h => ?_⟩
  obtain ⟨h1, h2, h3⟩ := C82_sigma_binds _ _ _ _ _ _ h
  simp only [elems, List.cons.injEq, and_true, true_and] at h2 h3
  have e : ∀ (H : Tr F G → F) (t : Tr F G) (n : Nat), (lcScalars H t n).2 = t ++ List.replicate (n - 1) .challenge := by
    intro H t n
    unfold lcScalars
    split
    · rename_i h; simp [h]
    · exact challenges_tr H _ t
  have h4 : (lcScalars H (initAgg g tr pk cts coms) cts.length).2 = (lcScalars H' (initAgg g' tr' pk' cts' coms') cts'.length).2 := by
    simpa [initTr] using h1
  rw [e, e] at h4
  have hlast : ∀ (g : Gens G) (tr : Tr F G) (pk : G) (cts : List (Ctext G)) (coms : List G), ∃ a x, x ≠ Msg.challenge ∧
      initAgg g tr pk cts coms = a ++ [x] := by
    intro g tr pk cts coms
    rcases List.eq_nil_or_concat (g.B :: g.Bb :: pk :: (cts.flatMap (fun ct => [ct.e1, ct.e2]) ++ coms)) with h | ⟨l, x, h⟩
    · simp at h
    · refine ⟨tr ++ [.label "Sigma protocol single group v.0.1", .label "PedersenElGamalAggEq"] ++ l.map .elem, .elem x, by simp, ?_⟩
      simp [initAgg, initSigma, h]
  obtain ⟨a, x, hx, ha⟩ := hlast g tr pk cts coms
  obtain ⟨a', x', hx', ha'⟩ := hlast g' tr' pk' cts' coms'
  rw [ha, ha'] at h4
  obtain ⟨h5, -⟩ := drawn_inj hx hx' h4
  rw [← ha, ← ha'] at h5
  obtain ⟨i1, i2, i3, i4, i5⟩ := hinit h5
  obtain ⟨u, v⟩ := ct
  obtain ⟨u', v'⟩ := ct'
  simp only at h2
  refine ⟨i1, i2, i3, i4, i5, by rw [h2.2.2.2.1, h2.2.2.2.2.1], h2.2.2.2.2.2, ?_, h3.2.2⟩
  cases hp : p.e1
  cases hp' : p'.e1
  simp only [hp, hp'] at h3
  simp [h3]

end Verif.PedersenElGamal

/-! ### Delegated Schnorr -/

namespace Verif.DelegatedSchnorr

open Verif.Binding
open Verif.ChaumPedersen (Gens)

variable {F G K : Type} [Field F] [AddCommGroup G] [Module F G]

omit [Field F] [AddCommGroup G] [Module F G] in
/-- C82: the first challenge binds what is before it, the generators, the commitments, the commitment to the prover's values and the
randomizers; the second one (for the circuit's linear combination) also the responses. -/
theorem C82_delegated_binds (g g' : Gens G) (tr tr' : Tr F G K) (coms coms' : List G) (k k' : K) (rs rs' : List G)
    (zs zs' : List (F × F)) :
    (point1 g tr coms k rs = point1 g' tr' coms' k' rs' → tr = tr' ∧ g = g' ∧ coms = coms' ∧ k = k' ∧ rs = rs') ∧
    (point2 (point1 g tr coms k rs) zs = point2 (point1 g' tr' coms' k' rs') zs' →
      tr = tr' ∧ g = g' ∧ coms = coms' ∧ k = k' ∧ rs = rs' ∧ zs = zs') := by
  have h1 : point1 g tr coms k rs = point1 g' tr' coms' k' rs' → tr = tr' ∧ g = g' ∧ coms = coms' ∧ k = k' ∧ rs = rs' := by
    intro h
    unfold point1 at h
    have e : ∀ (t : Tr F G K) (k : K) (l : List (Msg F G K)), t ++ [Msg.stateComm k] ++ l = t ++ .stateComm k :: l := by simp
    rw [e, e] at h
    obtain ⟨h1, h2, h3⟩ := cut (fun m : Msg F G K => ∀ k, m ≠ .stateComm k) (by simp) (by simp) (by simp) (by simp) h
    have e2 : ∀ (t : Tr F G K) (g : Gens G) (n : Nat) (l : List (Msg F G K)), t ++ [.base g.B, .baseBlinding g.Bb, .number n] ++ l =
        (t ++ [.base g.B, .baseBlinding g.Bb]) ++ .number n :: l := by simp
    rw [e2, e2] at h1
    obtain ⟨h4, -, h6⟩ := cut (fun m : Msg F G K => ∀ n, m ≠ .number n) (by simp) (by simp) (by simp) (by simp) h1
    have h7 := List.append_inj' h4 rfl
    obtain ⟨b, bb⟩ := g
    obtain ⟨b', bb'⟩ := g'
    refine ⟨h7.1, by simpa using h7.2, List.map_injective_iff.mpr (by intro a b; simp) h6, by simpa using h2,
      List.map_injective_iff.mpr (by intro a b; simp) h3⟩
  refine ⟨h1, fun h => ?_⟩
  unfold point2 at h
  rw [List.append_assoc, List.append_assoc, List.singleton_append, List.singleton_append] at h
  obtain ⟨h2, -, h3⟩ := cut (fun m : Msg F G K => m ≠ .challenge) (by simp; grind) (by simp; grind) (by simp) (by simp) h
  obtain ⟨i1, i2, i3, i4, i5⟩ := h1 h2
  refine ⟨i1, i2, i3, i4, i5, flatMap_pairs (P := fun p => ((Msg.response p.1, Msg.response p.2) : Msg F G K × Msg F G K)) (fun _ => rfl) ?_ h3⟩
  rintro ⟨a, b⟩ ⟨c, d⟩ h
  simpa using h

/-- moving an element from the public ones to the commitments, or from the commitments to the randomizers, changes the transcript -/
example : Sigma.challengePoint ([] : Sigma.Tr (ZMod 101) (ZMod 101)) [1, 2] [3] ≠ Sigma.challengePoint [] [1] [2, 3] ∧
    point1 (⟨1, 7⟩ : Gens (ZMod 101)) ([] : Tr (ZMod 101) (ZMod 101) (ZMod 101)) [2, 3] 4 [5] ≠ point1 ⟨1, 7⟩ [] [2] 4 [3, 5] := by
  refine ⟨fun h => ?_, fun h => ?_⟩
  · exact absurd (Sigma.C82_sigma_binds _ _ _ _ _ _ h).2.1 (by decide)
  · exact absurd ((C82_delegated_binds _ _ _ _ _ _ _ _ _ _ [] []).1 h).2.2.1 (by decide)

end Verif.DelegatedSchnorr

/-! ### Anonymous credentials -/

namespace Verif.AnonCreds

open Verif.Binding
open Verif.Pippenger (sumOfProducts)
open Verif.Sigma (multiExpDefault dot_nil dot_nil_right dot_cons)

variable {F G1 G2 Gt : Type} [Field F] [AddCommGroup G1] [Module F G1] [AddCommGroup G2] [Module F G2] [AddCommGroup Gt]
  [Module F Gt]

theorem initPok_inj (P : Pairing F G1 G2 Gt) (s s' : String) (ipk ipk' : IssuerPK G1 G2) (cm cm' : Sig G1) (l l' : Tr G1 G2)
    (hl : ∀ m ∈ l, ∀ g, m ≠ .elem2 "public elem g2" g) (hl' : ∀ m ∈ l', ∀ g, m ≠ .elem2 "public elem g2" g)
    (h : initPok P [.label s] ipk cm ++ l = initPok P [.label s'] ipk' cm' ++ l') : s = s' ∧ ipk = ipk' ∧ cm = cm' ∧ l = l' := by
  simp only [initPok, List.map_cons, List.map_nil, List.cons_append, List.nil_append, List.cons.injEq, Msg.label.injEq,
    Msg.elem1.injEq, Msg.elem2.injEq, true_and] at h
  obtain ⟨h1, h2, h3, h4, h5, h6, h7, h8⟩ := h
  have key : ∀ (a a' : List G2), a.map (Msg.elem2 "public elem g2") ++ l = a'.map (.elem2 "public elem g2") ++ l' → a = a' ∧ l = l' := by
    intro a
    induction a with
    | nil =>
      intro a' h
      cases a' with
      | nil => exact ⟨rfl, by simpa using h⟩
      | cons x a' => exact absurd rfl (hl _ (by rw [List.map_nil, List.nil_append] at h; rw [h]; simp) x)
    | cons y a ih =>
      intro a' h
      cases a' with
      | nil => exact absurd rfl (hl' _ (by rw [List.map_nil, List.nil_append] at h; rw [← h]; simp) y)
      | cons x a' =>
        simp only [List.map_cons, List.cons_append, List.cons.injEq, Msg.elem2.injEq, true_and] at h
        obtain ⟨i1, i2⟩ := ih a' h.2
        exact ⟨by rw [h.1, i1], i2⟩
  obtain ⟨k1, k2⟩ := key _ _ h8
  obtain ⟨a, b, c, d, e⟩ := ipk
  obtain ⟨a', b', c', d', e'⟩ := ipk'
  obtain ⟨u, v⟩ := cm
  obtain ⟨u', v'⟩ := cm'
  simp only at h2 h3 h4 h5 h6 h7 k1
  exact ⟨h1, by simp [h2, h5, h6, h7, k1], by simp [h3, h4], k2⟩

/-- C82: the challenge of a presentation binds the issuer's key, the commitment and the prover's message. -/
theorem C82_open_binds (P : Pairing F G1 G2 Gt) (ipk ipk' : IssuerPK G1 G2) (cm cm' : Sig G1) (b b' : G2)
    (h : openPoint P ipk cm b = openPoint P ipk' cm' b') : ipk = ipk' ∧ cm = cm' ∧ b = b' := by
  obtain ⟨-, h1, h2, h3⟩ := initPok_inj P _ _ _ _ _ _ _ _ (by simp) (by simp) h
  exact ⟨h1, h2, by simpa using h3⟩

/-- C82: the challenge of the validity proof of a commitment also binds the message it is made for: the proof is a signature. -/
theorem C82_commit_binds (P : Pairing F G1 G2 Gt) (ipk ipk' : IssuerPK G1 G2) (cm cm' : Sig G1) (m m' : Bytes) (b b' : G2)
    (h : commitPoint P ipk cm m b = commitPoint P ipk' cm' m' b') : ipk = ipk' ∧ cm = cm' ∧ m = m' ∧ b = b' := by
  unfold commitPoint at h
  rw [List.append_assoc, List.append_assoc] at h
  obtain ⟨-, h1, h2, h3⟩ := initPok_inj P _ _ _ _ _ _ _ _ (by simp) (by simp) h
  exact ⟨h1, h2, by simpa using h3⟩

/-- C82: the challenge of a confidential presentation binds the issuer's key, the encryption key, the commitment, the ciphertexts,
the message and all of the prover's messages. -/
theorem C82_confidential_binds (P : Pairing F G1 G2 Gt) (ipk ipk' : IssuerPK G1 G2) (ek ek' : G1) (cm cm' : Sig G1)
    (cts cts' : List (ElGamal.Ct G1)) (m m' : Bytes) (cmCt cmCt' : List (ElGamal.Ct G1)) (b b' : G2)
    (h : ConfidentialCreds.cacPoint P ipk ek cm cts m cmCt b = ConfidentialCreds.cacPoint P ipk' ek' cm' cts' m' cmCt' b') :
    ipk = ipk' ∧ ek = ek' ∧ cm = cm' ∧ cts = cts' ∧ m = m' ∧ cmCt = cmCt' ∧ b = b' := by
  unfold ConfidentialCreds.cacPoint at h
  have e : ∀ (t : Tr G1 G2) (m : Bytes) (l : List (ElGamal.Ct G1)) (b : G2),
      t ++ [.bytes "Signature Message" m] ++ l.flatMap ConfidentialCreds.appendCmCt ++ [.elem2 "proof_commitment" b] =
        t ++ .bytes "Signature Message" m :: (l.flatMap ConfidentialCreds.appendCmCt ++ [.elem2 "proof_commitment" b]) := by simp
  rw [e, e] at h
  obtain ⟨h1, h2, h3⟩ := cut (fun x : Msg G1 G2 => ∀ s m, x ≠ .bytes s m) (by simp [ConfidentialCreds.appendCmCt]; grind)
    (by simp [ConfidentialCreds.appendCmCt]; grind) (by simp) (by simp) h
  have h4 := List.append_inj' h3 rfl
  have hcm := flatMap_pairs (P := fun ct : ElGamal.Ct G1 =>
    ((Msg.elem1 "proof_commitment" ct.e1, Msg.elem1 "proof_commitment" ct.e2) : Msg G1 G2 × Msg G1 G2)) (fun _ => rfl)
    (by rintro ⟨a, b⟩ ⟨c, d⟩ h; simpa using h) h4.1
  unfold ConfidentialCreds.cacInit at h1
  have e2 : ∀ (t : Tr G1 G2) (ek : G1) (cm : Sig G1) (l : List (ElGamal.Ct G1)),
      t ++ [.elem1 "encryption key" ek] ++ [.elem1 "sigma1" cm.sigma1, .elem1 "sigma2" cm.sigma2] ++
        l.flatMap ConfidentialCreds.appendCt = t ++ .elem1 "encryption key" ek ::
          (.elem1 "sigma1" cm.sigma1 :: .elem1 "sigma2" cm.sigma2 :: l.flatMap ConfidentialCreds.appendCt) := by simp
  rw [e2, e2] at h1
  obtain ⟨h5, h6, h7⟩ := cut (fun x : Msg G1 G2 => ∀ g, x ≠ .elem1 "encryption key" g) (by simp [ConfidentialCreds.appendCt]; grind)
    (by simp [ConfidentialCreds.appendCt]; grind) (by simp) (by simp) h1
  simp only [List.cons.injEq, Msg.elem1.injEq, true_and] at h7
  have hct := flatMap_pairs (P := fun ct : ElGamal.Ct G1 =>
    ((Msg.elem1 "ct.e1" ct.e1, Msg.elem1 "ct.e2" ct.e2) : Msg G1 G2 × Msg G1 G2)) (fun _ => rfl)
    (by rintro ⟨a, b⟩ ⟨c, d⟩ h; simpa using h) h7.2.2
  simp only [List.cons_append, List.nil_append, List.cons.injEq, Msg.elem1.injEq, Msg.elem2.injEq, true_and] at h5
  have hy := List.map_injective_iff.mpr (by intro a b; simp) h5.2.2.2.2
  obtain ⟨a1, a2, a3, a4, a5⟩ := ipk
  obtain ⟨b1, b2, b3, b4, b5⟩ := ipk'
  obtain ⟨u, v⟩ := cm
  obtain ⟨u', v'⟩ := cm'
  simp only at h5 h7 hy
  refine ⟨by simp [h5, hy], by simpa using h6, by simp [h7], hct, by simpa using h2, hcm, by simpa using h4.2⟩

/-- C82: the three kinds of proofs never have a challenge in common. -/
theorem C82_credentials_separate (P : Pairing F G1 G2 Gt) (ipk ipk' ipk'' : IssuerPK G1 G2) (cm cm' cm'' : Sig G1) (m m' : Bytes)
    (b b' b'' : G2) (ek : G1) (cts cmCt : List (ElGamal.Ct G1)) :
    openPoint P ipk cm b ≠ commitPoint P ipk' cm' m b' ∧
    openPoint P ipk cm b ≠ ConfidentialCreds.cacPoint P ipk'' ek cm'' cts m' cmCt b'' ∧
    commitPoint P ipk' cm' m b' ≠ ConfidentialCreds.cacPoint P ipk'' ek cm'' cts m' cmCt b'' := by
  refine ⟨fun h => ?_, fun h => ?_, fun h => ?_⟩ <;> simpa [openPoint, commitPoint, initPok, ConfidentialCreds.cacPoint,
    ConfidentialCreds.cacInit] using congrArg List.head? h

/-! The revealed attributes are not absorbed before the challenge of a presentation is drawn. -/

/-- A cheating holder of a credential: the honest prover of `open_comm` (crypto/src/anon_creds.rs:346-384), except that it adds
`Σ δᵢ·Yᵢ`, over the revealed attributes, to its first message; once it knows the challenge `c` it claims the attributes `aᵢ + δᵢ/c`. -/
def cheat (P : Pairing F G1 G2 Gt) (H : Tr G1 G2 → F) (bl : Blinds F) (usk : F) (ipk : IssuerPK G1 G2) (cm : Sig G1) (t : F)
    (attrs delta : List F) (revealMap : List Bool) : Res (PoK F G2 × List F) := do
  let (b, gamma) ← blindLoop bl.gamma 0 ipk.yy2 (proverAttrs attrs revealMap) (bl.beta1 • ipk.gen2 + bl.beta2 • ipk.zz2)
  let blinding := b + sumOfProducts (List.zipWith (fun d r => if r then d else 0) delta revealMap) ipk.yy2
  let c := H (openPoint P ipk cm blinding)
  let rs ← responses c (proverAttrs attrs revealMap) gamma
  pure (⟨blinding, c * t + bl.beta1, c * usk + bl.beta2, rs⟩, List.zipWith (fun a d => a + d / c) attrs delta)

omit [AddCommGroup G2] [Module F G2] in
theorem shifted [AddCommGroup G2] [Module F G2] (c : F) (hc : c ≠ 0) (attrs delta : List F) (rev : List Bool) (rs s : List F) (ys : List G2)
    (hd : delta.length = attrs.length) (hr : rev.length = attrs.length) (h : attrScalars c (shown attrs rev) rs = .ok s) :
    ∃ s', attrScalars c (shown (List.zipWith (fun a d => a + d / c) attrs delta) rev) rs = .ok s' ∧
      sumOfProducts s' ys = sumOfProducts s ys + sumOfProducts (List.zipWith (fun d r => if r then d else 0) delta rev) ys := by
  induction attrs generalizing delta rev rs s ys with
  | nil =>
    obtain rfl := List.length_eq_zero_iff.mp hd
    simp only [shown, List.zipWith_nil_left, attrScalars, Res.ok.injEq] at h ⊢
    subst h
    exact ⟨[], rfl, by simp [dot_nil]⟩
  | cons a attrs ih =>
    cases delta with
    | nil => simp at hd
    | cons d delta =>
      cases rev with
      | nil => simp at hr
      | cons r rev =>
        have hd' : delta.length = attrs.length := by simpa using hd
        have hr' : rev.length = attrs.length := by simpa using hr
        cases r with
        | true =>
          simp only [shown, List.zipWith_cons_cons, if_true, attrScalars] at h ⊢
          obtain ⟨t, h1, h2⟩ := Res.bind_eq_ok.mp h
          simp only [Res.pure_eq, Res.ok.injEq] at h2
          subst h2
          cases ys with
          | nil =>
            obtain ⟨t', i1, -⟩ := ih delta rev rs t [] hd' hr' h1
            unfold shown at i1
            rw [i1]
            exact ⟨_, rfl, by simp [dot_nil_right]⟩
          | cons y ys =>
            obtain ⟨t', i1, i2⟩ := ih delta rev rs t ys hd' hr' h1
            unfold shown at i1
            rw [i1]
            refine ⟨_, rfl, ?_⟩
            simp only [dot_cons, i2]
            have : (a + d / c) * c = a * c + d := by field_simp
            rw [this]
            module
        | false =>
          simp only [shown, List.zipWith_cons_cons, Bool.false_eq_true, if_false] at h ⊢
          cases rs with
          | nil => simp [attrScalars] at h
          | cons r rs =>
            simp only [attrScalars] at h ⊢
            obtain ⟨t, h1, h2⟩ := Res.bind_eq_ok.mp h
            simp only [Res.pure_eq, Res.ok.injEq] at h2
            subst h2
            cases ys with
            | nil =>
              obtain ⟨t', i1, -⟩ := ih delta rev rs t [] hd' hr' h1
              unfold shown at i1
              rw [i1]
              exact ⟨_, rfl, by simp [dot_nil_right]⟩
            | cons y ys =>
              obtain ⟨t', i1, i2⟩ := ih delta rev rs t ys hd' hr' h1
              unfold shown at i1
              rw [i1]
              refine ⟨_, rfl, ?_⟩
              simp only [dot_cons, i2]
              module

/-- C82 does not hold of the shown attributes (and C40 does not hold in the random-oracle model): the holder of a credential
chooses any shifts `δ` before the challenge is drawn, and gets an accepted presentation showing the attribute `aᵢ + δᵢ/c` in place
of `aᵢ` at every revealed position, whatever the oracle, unless `c` is zero.  With 32-bit attributes, as in the api crate, the
claimed values are in range with negligible probability only. -/
theorem C82_revealed_not_bound [DecidableEq Gt] (P : Pairing F G1 G2 Gt) (H : Tr G1 G2 → F) (x z : F)
    (gen1 : G1) (gen2 : G2) (y : List F) (sk u : F) (attrs delta : List F) (revealMap : List Bool) (rand : Randomizer F)
    (bl : Blinds F) (hn : attrs.length = y.length) (hd : delta.length = attrs.length) (hr : revealMap.length = attrs.length)
    (h8 : y.length < 796) :
    let keys := issuerKeygen x z gen1 gen2 y
    ∃ sig proof claimed, grant keys.1 (userKeygen keys.2 sk).2 attrs u = .ok sig ∧
      cheat P H bl sk keys.2 (comm sig rand) rand.t attrs delta revealMap = .ok (proof, claimed) ∧
      (H (openPoint P keys.2 (comm sig rand) proof.blinding) ≠ 0 →
        verifyOpen P multiExpDefault H keys.2 (comm sig rand) proof (shown claimed revealMap) = .ok () ∧
        ∀ (i : Nat) (a d : F), attrs[i]? = some a → delta[i]? = some d → d ≠ 0 → ∃ b, claimed[i]? = some b ∧ b ≠ a) := by
  intro keys
  obtain ⟨sig, hg⟩ : ∃ sig, grant keys.1 (userKeygen keys.2 sk).2 attrs u = .ok sig := by
    unfold grant
    rw [if_neg (by simp [keys, issuerKeygen, hn])]
    exact ⟨_, rfl⟩
  obtain ⟨_, hc⟩ := commits_of_grant P x z gen1 gen2 y sk attrs u sig rand hg
  have hy : keys.2.yy2.length = y.length := by simp [keys, issuerKeygen]
  obtain ⟨B, gs, hb, hk⟩ := honest_core bl.gamma 0 keys.2.yy2 attrs revealMap (bl.beta1 • keys.2.gen2 + bl.beta2 • keys.2.zz2)
    (by omega) (by omega)
  generalize hB : B + sumOfProducts (List.zipWith (fun d r => if r then d else 0) delta revealMap) keys.2.yy2 = B'
  generalize hcv : H (openPoint P keys.2 (comm sig rand) B') = c at *
  obtain ⟨rs, s, hrs, hs, hl, hdot⟩ := hk c
  refine ⟨sig, ⟨B', c * rand.t + bl.beta1, c * sk + bl.beta2, rs⟩, List.zipWith (fun a d => a + d / c) attrs delta, hg, ?_, fun hc0 => ?_⟩
  · unfold cheat
    rw [hb]
    simp only [Res.bind_ok]
    rw [hB, hcv, hrs]
    rfl
  simp only [hcv] at hc0
  obtain ⟨s', hs', hdot'⟩ := shifted c hc0 attrs delta revealMap rs s keys.2.yy2 hd hr hs
  constructor
  · rw [C40_accepts_iff]
    simp only [hcv]
    refine ⟨by simp [shown, hd, hr]; omega, s', hs', ?_⟩
    unfold Equation
    simp only [hdot', hdot, ← hB]
    unfold Commits at hc
    change P.e _ (_ + _ + _ + _) = P.e _ keys.2.gen2 at hc
    rw [← hc, ← P.smul_right]
    congr 1
    module
  · intro i a d ha hdi hd0
    refine ⟨a + d / c, by simp [List.getElem?_zipWith, ha, hdi], fun h => ?_⟩
    have : d / c = 0 := by linear_combination h
    exact (div_ne_zero hd0 hc0) this

/-- a credential with attributes 41, 43, 47 presented as having the second attribute 17 -/
example : let cm := comm (F := ZMod 101) exSig ⟨59, 61⟩
    ∃ proof claimed, cheat exPairing (exOracle 1) exBlinds 37 exKeys.2 cm 61 [41, 43, 47] [0, 8, 0]
        [false, true, false] = .ok (proof, claimed) ∧ claimed[1]? = some 17 ∧
      verifyOpen exPairing multiExpDefault (exOracle 1) exKeys.2 cm proof (shown claimed [false, true, false]) = .ok () := by
  refine ⟨⟨22, 12, 72, [65, 2]⟩, [41, 17, 47], ?_, ?_, ?_⟩ <;> decide +kernel

end Verif.AnonCreds
