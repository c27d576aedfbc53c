import Mathlib.Tactic.TypeStar
import Mathlib.Data.List.Basic

/-!
# Outcomes of a C++ call

`Res α` is the outcome of a modelled call: it returned a value (`ok`), it left by a C++
exception (`throw`), or it executed undefined behaviour (`ub`): out-of-range `operator[]`,
`front()` of an empty container, a write past a buffer, a wrapped unsigned subtraction used
as a size. The three are kept distinct so that a theorem about `ok` also excludes `ub`.
-/

set_option autoImplicit false

namespace Verif

/-- Outcome of a C++ call. -/
inductive Res (α : Type*) where
  | ok (a : α)
  | throw
  | ub
  deriving DecidableEq, Repr

namespace Res

/-- Sequencing: an exception or undefined behaviour ends the computation. -/
def bind {α β : Type*} : Res α → (α → Res β) → Res β
  | ok a, f => f a
  | throw, _ => throw
  | ub, _ => ub

/-- Apply a function to the returned value. -/
def map {α β : Type*} (f : α → β) : Res α → Res β
  | ok a => ok (f a)
  | throw => throw
  | ub => ub

@[simp] theorem bind_ok {α β : Type*} (a : α) (f : α → Res β) : (ok a).bind f = f a := rfl
@[simp] theorem bind_throw {α β : Type*} (f : α → Res β) : (throw : Res α).bind f = throw := rfl
@[simp] theorem bind_ub {α β : Type*} (f : α → Res β) : (ub : Res α).bind f = ub := rfl
@[simp] theorem map_ok {α β : Type*} (a : α) (f : α → β) : (ok a).map f = ok (f a) := rfl
@[simp] theorem map_throw {α β : Type*} (f : α → β) : (throw : Res α).map f = throw := rfl
@[simp] theorem map_ub {α β : Type*} (f : α → β) : (ub : Res α).map f = ub := rfl

theorem bind_eq_ok {α β : Type*} {x : Res α} {f : α → Res β} {b : β} :
    x.bind f = ok b ↔ ∃ a, x = ok a ∧ f a = ok b := by
  cases x <;> simp [bind]

end Res

/-- `v[i]` of `std::vector`: undefined behaviour when out of range. -/
def idx {α : Type*} (l : List α) (i : Nat) : Res α :=
  match l[i]? with
  | some a => .ok a
  | none => .ub

@[simp] theorem idx_eq_ok {α : Type*} {l : List α} {i : Nat} {a : α} :
    idx l i = .ok a ↔ l[i]? = some a := by
  unfold idx; cases l[i]? <;> simp

@[simp] theorem idx_eq_ub {α : Type*} {l : List α} {i : Nat} :
    idx l i = .ub ↔ l.length ≤ i := by
  unfold idx
  cases h : l[i]? with
  | some a =>
    have := (List.getElem?_eq_some_iff.1 h).1
    simp; omega
  | none => simpa using h

theorem idx_ne_throw {α : Type*} {l : List α} {i : Nat} : idx l i ≠ .throw := by
  unfold idx; cases l[i]? <;> simp

theorem idx_of_lt {α : Type*} {l : List α} {i : Nat} (h : i < l.length) :
    idx l i = .ok l[i] := by simp [h]

/-- Run a fallible function over a list, in order, stopping at the first failure. -/
def mapRes {α β : Type*} (f : α → Res β) : List α → Res (List β)
  | [] => .ok []
  | a :: l => (f a).bind fun b => (mapRes f l).bind fun bs => .ok (b :: bs)

end Verif
