import Mathlib.Logic.Basic

/-! Outcome of a Go call: normal return, returned `error`, or panic. -/

namespace Verif

/-- Outcome of a Go function: `ok` a normal return, `err` a non-nil `error` return, `panic` a
run-time panic. -/
inductive Res (α : Type*) where
  | ok (a : α)
  | err
  | panic
deriving DecidableEq, Repr

namespace Res
universe u
variable {α β : Type u}

/-- sequencing: an error return or a panic ends the call -/
def bind {α β : Type*} (x : Res α) (f : α → Res β) : Res β :=
  match x with
  | ok a => f a
  | err => err
  | panic => panic

instance : Monad Res where
  pure := ok
  bind := bind

@[simp] theorem bind_ok (a : α) (f : α → Res β) : (Res.ok a >>= f) = f a := rfl
@[simp] theorem bind_err (f : α → Res β) : ((Res.err : Res α) >>= f) = .err := rfl
@[simp] theorem bind_panic (f : α → Res β) : ((Res.panic : Res α) >>= f) = .panic := rfl
@[simp] theorem pure_eq (a : α) : (pure a : Res α) = .ok a := rfl

theorem bind_eq_ok {x : Res α} {f : α → Res β} {b : β} :
    (x >>= f) = .ok b ↔ ∃ a, x = .ok a ∧ f a = .ok b := by
  cases x <;> simp

instance : LawfulMonad Res := LawfulMonad.mk' (m := Res)
  (id_map := fun x => by cases x <;> rfl)
  (pure_bind := fun _ _ => rfl)
  (bind_assoc := fun x _ _ => by cases x <;> rfl)

/-- error value lifted from `Option` -/
def ofOption : Option α → Res α
  | some a => ok a
  | none => err

end Res
end Verif
