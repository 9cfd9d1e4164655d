/-!
# Primitives shared by every part of the model

Rust's fixed-width integers are bit vectors, slices and vectors are lists, and a Rust computation that can return
`Ok`, return `Err` or panic is an `Exec`.
-/

namespace Xcvr

/-- Rust `u8`. -/
abbrev U8 := BitVec 8
/-- Rust `u16`. -/
abbrev U16 := BitVec 16
/-- Rust `u32`. -/
abbrev U32 := BitVec 32
/-- Rust `u64`. -/
abbrev U64 := BitVec 64

/-- Rust `&[u8]` / `Vec<u8>`. -/
abbrev Bytes := List U8

deriving instance DecidableEq for Except

/-- Outcome of a Rust computation: `Ok`, `Err`, or a panic (`unwrap` on `None`/`Err`, slice index out of range,
`unreachable!`, failed `assert!`, arithmetic overflow with overflow checks on). -/
inductive Exec (ε : Type) (α : Type) where
  | ok (a : α)
  | err (e : ε)
  | panic
  deriving DecidableEq, Repr

namespace Exec

variable {ε α β : Type}

/-- Rust `?`: continue on `Ok`, propagate `Err` and panics. -/
def bind (x : Exec ε α) (f : α → Exec ε β) : Exec ε β :=
  match x with
  | ok a => f a
  | err e => err e
  | panic => panic

instance : Monad (Exec ε) where
  pure := ok
  bind := bind

/-- Embed a computation that cannot panic. -/
def ofExcept : Except ε α → Exec ε α
  | .ok a => ok a
  | .error e => err e

/-- Rust `Option::unwrap` / `expect`. -/
def unwrap : Option α → Exec ε α
  | some a => ok a
  | none => panic

/-- Rust `Result::unwrap` / `expect`. -/
def unwrapExcept {δ : Type} : Except δ α → Exec ε α
  | .ok a => ok a
  | .error _ => panic

/-- The computation did not panic. -/
def NoPanic (x : Exec ε α) : Prop := x ≠ panic

@[simp] theorem pure_eq (a : α) : (pure a : Exec ε α) = ok a := (rfl)
@[simp] theorem ok_bind (a : α) (f : α → Exec ε β) : (ok a >>= f) = f a := (rfl)
@[simp] theorem err_bind (e : ε) (f : α → Exec ε β) : (err e >>= f) = err e := (rfl)
@[simp] theorem panic_bind (f : α → Exec ε β) : ((panic : Exec ε α) >>= f) = panic := (rfl)
@[simp] theorem map_eq (g : α → β) (x : Exec ε α) : (g <$> x) = x >>= fun a => ok (g a) := by
  cases x <;> rfl

instance : LawfulMonad (Exec ε) := LawfulMonad.mk'
  (id_map := by intro α x; cases x <;> rfl)
  (pure_bind := by intros; rfl)
  (bind_assoc := by intro α β γ x f g; cases x <;> rfl)

theorem bind_eq_ok {x : Exec ε α} {f : α → Exec ε β} {b : β} :
    (x >>= f) = ok b ↔ ∃ a, x = ok a ∧ f a = ok b := by
  cases x <;> simp

end Exec

end Xcvr
