/-!
# Conventions shared by the whole model

`u8` is `BitVec 8`, `u16` is `BitVec 16`, wider counters are `Nat`.
Every operation on which Rust (with overflow checks) would panic is an explicit outcome here.
-/
namespace Verif

/-- Rust `u8`. -/
abbrev U8 := BitVec 8
/-- Rust `u16`. -/
abbrev U16 := BitVec 16

/-- src/util/qr.rs:10-15 `QRError`: a message. -/
structure QRError where
  msg : String
deriving DecidableEq, Repr

/-- Result of a Rust computation that can only return or panic. -/
inductive Run (α : Type) where
  | ret (a : α)
  | panic
deriving DecidableEq, Repr

namespace Run

/-- Sequencing: a panic aborts. -/
def bind {α β : Type} : Run α → (α → Run β) → Run β
  | ret a, f => f a
  | panic, _ => panic

instance : Monad Run where
  pure := ret
  bind := bind

@[simp] theorem pure_eq {α : Type} (a : α) : (pure a : Run α) = ret a := rfl
@[simp] theorem ret_bind {α β : Type} (a : α) (f : α → Run β) : (ret a >>= f) = f a := rfl
@[simp] theorem panic_bind {α β : Type} (f : α → Run β) : ((panic : Run α) >>= f) = panic := rfl

end Run

/-- Result of a Rust computation returning `Result<α, QRError>`, which may also panic. -/
inductive Outcome (α : Type) where
  | ok (a : α)
  | err (e : QRError)
  | panic
deriving DecidableEq, Repr

namespace Outcome

/-- Sequencing with the `?` operator: errors and panics abort. -/
def bind {α β : Type} : Outcome α → (α → Outcome β) → Outcome β
  | ok a, f => f a
  | err e, _ => err e
  | panic, _ => panic

instance : Monad Outcome where
  pure := ok
  bind := bind

@[simp] theorem pure_eq {α : Type} (a : α) : (pure a : Outcome α) = ok a := rfl
@[simp] theorem ok_bind {α β : Type} (a : α) (f : α → Outcome β) : (ok a >>= f) = f a := rfl
@[simp] theorem err_bind {α β : Type} (e : QRError) (f : α → Outcome β) :
    ((err e : Outcome α) >>= f) = err e := rfl
@[simp] theorem panic_bind {α β : Type} (f : α → Outcome β) :
    ((panic : Outcome α) >>= f) = panic := rfl

/-- `Result::map`. -/
def map {α β : Type} (f : α → β) : Outcome α → Outcome β
  | ok a => ok (f a)
  | err e => err e
  | panic => panic

end Outcome

/-- Unsigned subtraction of Rust with overflow checks: panics below zero. -/
def checkedSub (a b : Nat) : Run Nat := if b ≤ a then .ret (a - b) else .panic

/-- `u8 >> n` with overflow checks: panics when `n ≥ 8`. -/
def checkedShr (x : U8) (n : Nat) : Run U8 := if n < 8 then .ret (x >>> n) else .panic

/-- `u8 << n` with overflow checks: panics when `n ≥ 8`; high bits are dropped. -/
def checkedShl (x : U8) (n : Nat) : Run U8 := if n < 8 then .ret (x <<< n) else .panic

/-- `u8 + u8` with overflow checks. -/
def checkedAdd8 (x y : U8) : Run U8 := if x.toNat + y.toNat < 256 then .ret (x + y) else .panic

/-- `u16 << n` with overflow checks: panics when `n ≥ 16`. -/
def checkedShl16 (x : U16) (n : Nat) : Run U16 := if n < 16 then .ret (x <<< n) else .panic

/-- `u16 + u16` with overflow checks. -/
def checkedAdd16 (x y : U16) : Run U16 :=
  if x.toNat + y.toNat < 65536 then .ret (x + y) else .panic

end Verif
