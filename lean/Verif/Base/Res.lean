/-!
Results. `Result<T, E>` with an explicit third outcome for a panic.
-/

namespace Oid4vci

/-- The outcome of calling a Rust function that returns `Result<α, ε>`: it returns `Ok`, returns
`Err`, or panics. -/
inductive Res (ε α : Type) where
  | ok (a : α)
  | err (e : ε)
  | panic
deriving DecidableEq, Repr

namespace Res

variable {ε ε' α β : Type}

/-- The `?` operator: continue on `Ok`, return early on `Err`; a panic unwinds. -/
@[simp] def bind (x : Res ε α) (f : α → Res ε β) : Res ε β :=
  match x with
  | ok a => f a
  | err e => err e
  | panic => panic

instance : Monad (Res ε) where
  pure := ok
  bind := bind

@[simp] theorem pure_eq (a : α) : (pure a : Res ε α) = ok a := rfl
@[simp] theorem bind_ok (a : α) (f : α → Res ε β) : (ok a >>= f) = f a := rfl
@[simp] theorem bind_err (e : ε) (f : α → Res ε β) : ((err e : Res ε α) >>= f) = err e := rfl
@[simp] theorem bind_panic (f : α → Res ε β) : ((panic : Res ε α) >>= f) = panic := rfl

/-- `Result::map_err`, and the `From` conversion which `?` applies to the error. -/
@[simp] def mapErr (f : ε → ε') : Res ε α → Res ε' α
  | ok a => ok a
  | err e => err (f e)
  | panic => panic

/-- `Option::ok_or`. -/
@[simp] def okOr (o : Option α) (e : ε) : Res ε α :=
  match o with
  | some a => ok a
  | none => err e

/-- `Result::is_ok`. -/
@[simp] def isOk : Res ε α → Bool
  | ok _ => true
  | _ => false

/-- Embedding of an external `Result` that never panics. -/
@[simp] def ofExcept : Except ε α → Res ε α
  | .ok a => ok a
  | .error e => err e

theorem bind_eq_ok {x : Res ε α} {f : α → Res ε β} {b : β} :
    (x >>= f) = ok b ↔ ∃ a, x = ok a ∧ f a = ok b := by
  cases x <;> simp

theorem mapErr_eq_ok {x : Res ε α} {f : ε → ε'} {a : α} : x.mapErr f = ok a ↔ x = ok a := by
  cases x <;> simp

theorem okOr_eq_ok {o : Option α} {e : ε} {a : α} : okOr o e = ok a ↔ o = some a := by
  cases o <;> simp

theorem bind_eq_panic {x : Res ε α} {f : α → Res ε β} :
    (x >>= f) = panic ↔ x = panic ∨ ∃ a, x = ok a ∧ f a = panic := by
  cases x <;> simp

theorem bind_eq_err {x : Res ε α} {f : α → Res ε β} {e : ε} :
    (x >>= f) = err e ↔ x = err e ∨ ∃ a, x = ok a ∧ f a = err e := by
  cases x <;> simp

theorem mapErr_eq_panic {x : Res ε α} {f : ε → ε'} : x.mapErr f = panic ↔ x = panic := by
  cases x <;> simp

theorem mapErr_eq_err {x : Res ε α} {f : ε → ε'} {e : ε'} :
    x.mapErr f = err e ↔ ∃ a, x = err a ∧ f a = e := by
  cases x <;> simp

theorem okOr_ne_panic {o : Option α} {e : ε} : okOr o e ≠ panic := by
  cases o <;> simp

theorem okOr_eq_err {o : Option α} {e e' : ε} : okOr o e = err e' ↔ o = none ∧ e = e' := by
  cases o <;> simp

end Res

end Oid4vci
