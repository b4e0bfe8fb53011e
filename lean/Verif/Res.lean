/-!
Outcome of a Rust function: a value, an `Err`, or a panic.  Used where the difference between an error and a panic matters;
elsewhere `Option` stands for `Result`.
-/

namespace Verif

/-- outcome of a call -/
inductive Res (α : Type) where
  | ok (a : α)
  | err
  | panic
  deriving DecidableEq, Repr

namespace Res

variable {α β : Type}

/-- sequencing: errors are propagated by `?`, panics unwind -/
def bind (x : Res α) (f : α → Res β) : Res β :=
  match x with
  | ok a => f a
  | err => err
  | panic => panic

instance : Monad Res where
  pure := ok
  bind := bind

@[simp] theorem bind_ok (a : α) (f : α → Res β) : (Res.ok a >>= f) = f a := rfl
@[simp] theorem bind_err (f : α → Res β) : ((Res.err : Res α) >>= f) = Res.err := rfl
@[simp] theorem bind_panic (f : α → Res β) : ((Res.panic : Res α) >>= f) = Res.panic := rfl
@[simp] theorem pure_eq (a : α) : (pure a : Res α) = Res.ok a := rfl

instance : LawfulMonad Res := LawfulMonad.mk' Res
  (id_map := fun x => by cases x <;> rfl)
  (pure_bind := fun _ _ => rfl)
  (bind_assoc := fun x _ _ => by cases x <;> rfl)

/-- `?` on a fallible call modelled by `Option` -/
def ofOption : Option α → Res α
  | some a => ok a
  | none => err

@[simp] theorem ofOption_some (a : α) : ofOption (some a) = ok a := rfl
@[simp] theorem ofOption_none : ofOption (none : Option α) = err := rfl

/-- `.unwrap()` on a fallible call modelled by `Option` -/
def unwrap : Option α → Res α
  | some a => ok a
  | none => panic

@[simp] theorem unwrap_some (a : α) : unwrap (some a) = ok a := rfl
@[simp] theorem unwrap_none : unwrap (none : Option α) = panic := rfl

theorem bind_eq_ok {x : Res α} {f : α → Res β} {b : β} : (x >>= f) = ok b ↔ ∃ a, x = ok a ∧ f a = ok b := by
  cases x <;> simp

end Res

end Verif
