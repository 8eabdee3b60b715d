/-!
# Outcomes of C++ calls

`Res α` is the outcome of a modelled C++ expression: a value, a thrown exception, or undefined
behaviour (out-of-bounds access through `operator[]`/`back()`/raw pointers, reads of
uninitialised members, null dereference, ...).  Undefined behaviour is a separate outcome, so
that no theorem can be true because a default value was substituted for it.
-/

namespace CT

/-- Outcome of a modelled call. -/
inductive Res (α : Type _) where
  /-- normal return -/
  | ok (a : α)
  /-- a C++ exception (`std::runtime_error`, `std::out_of_range`, ...) left the function -/
  | exc
  /-- undefined behaviour was reached -/
  | ub
  deriving DecidableEq, Repr

namespace Res

variable {α β : Type _}

/-- Sequencing: exceptions and undefined behaviour stop the computation. -/
def bind (r : Res α) (f : α → Res β) : Res β :=
  match r with
  | ok a => f a
  | exc => exc
  | ub => ub

instance : Monad Res where
  pure := ok
  bind := bind

@[simp] theorem ok_bind (a : α) (f : α → Res β) : (Res.ok a >>= f) = f a := rfl
@[simp] theorem exc_bind (f : α → Res β) : ((Res.exc : Res α) >>= f) = Res.exc := rfl
@[simp] theorem ub_bind (f : α → Res β) : ((Res.ub : Res α) >>= f) = Res.ub := rfl
@[simp] theorem pure_eq (a : α) : (pure a : Res α) = Res.ok a := rfl

instance : LawfulMonad Res := LawfulMonad.mk'
  (id_map := fun x => by cases x <;> rfl)
  (pure_bind := fun _ _ => rfl)
  (bind_assoc := fun x _ _ => by cases x <;> rfl)

theorem bind_eq_ok {r : Res α} {f : α → Res β} {b : β} :
    (r >>= f) = ok b ↔ ∃ a, r = ok a ∧ f a = ok b := by
  cases r <;> simp

/-- The call returned normally. -/
def isOk : Res α → Bool
  | ok _ => true
  | _ => false

end Res

/-- `std::vector::at(i)` with an `int` index: throws `std::out_of_range` outside `[0,size)`
(a negative `int` becomes a huge `size_t`). -/
def atI {α : Type _} (l : List α) (i : Int) : Res α :=
  if 0 ≤ i then
    match l[i.toNat]? with
    | some a => Res.ok a
    | none => Res.exc
  else Res.exc

/-- `std::vector::operator[](i)`: undefined outside `[0,size)`. -/
def idx {α : Type _} (l : List α) (i : Nat) : Res α :=
  match l[i]? with
  | some a => Res.ok a
  | none => Res.ub

/-- `std::vector::front()`: undefined on an empty vector. -/
def front {α : Type _} (l : List α) : Res α := idx l 0

/-- `std::vector::back()`: undefined on an empty vector. -/
def back {α : Type _} (l : List α) : Res α :=
  match l.getLast? with
  | some a => Res.ok a
  | none => Res.ub

end CT
