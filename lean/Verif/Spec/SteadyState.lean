import Verif.Model.SteadyState
import Mathlib.Data.List.Forall2
import Mathlib.Algebra.Order.Group.Abs

/-! # Vocabulary of the properties of steady states -/

set_option autoImplicit false

namespace Verif.Steady

variable {K I C D : Type*}

/-- Every entry is between its bounds, up to a tolerance. -/
def Within [Add K] [Sub K] [LE K] (tol : K) (lo x hi : List K) : Prop :=
  List.Forall₂ (fun l a => l - tol ≤ a) lo x ∧ List.Forall₂ (fun a u => a ≤ u + tol) x hi

/-- A point that satisfies bounds and constraints of a problem. -/
def Feasible [Add K] [Sub K] [LE K] (tol : K) (p : Nlp K) (x : List K) : Prop :=
  Within tol p.xl x p.xu ∧ Within tol p.cl (p.g x) p.cu

/-- When the solver reports success, bounds and constraints are satisfied. -/
def Accurate [Add K] [Sub K] [LE K] (tol : K) (S : SolverAD K) : Prop :=
  ∀ p x, S p = (true, x) → Feasible tol p x

/-- The same of the numerical solvers. -/
def AccurateNum [Add K] [Sub K] [LE K] (tol : K) (S : SolverNum K) : Prop :=
  (∀ f p x, S.find f p = .ok (true, x) → Feasible tol p x) ∧
  (∀ p x, S.optimise p = .ok (true, x) → Feasible tol p x)

/-- When the solver reports success on a maximisation of the last variable, no point that satisfies
bounds and constraints is better. -/
def Optimal [Field K] [LE K] (S : SolverAD K) : Prop :=
  ∀ p x, S p = (true, x) → p.goal = .maxLast → ∀ y, Feasible 0 p y → y.getLastD 0 ≤ x.getLastD 0

/-- `x` is best among the points that satisfy bounds and constraints, whether the last variable is maximised
or minimised. -/
def Best [Field K] [LE K] (p : Nlp K) (x : List K) : Prop :=
  ∀ y, Feasible 0 p y → (p.goal = .maxLast → y.getLastD 0 ≤ x.getLastD 0) ∧
    (p.goal = .minLast → x.getLastD 0 ≤ y.getLastD 0)

/-- What the solver reports as solved satisfies bounds and constraints and is best. -/
def Exact [Field K] [LE K] (S : SolverAD K) : Prop :=
  ∀ p x, S p = (true, x) → Feasible 0 p x ∧ Best p x

/-- The same of the numerical optimiser. -/
def ExactNum [Field K] [LE K] (S : SolverNum K) : Prop :=
  ∀ p x, S.optimise p = .ok (true, x) → Feasible 0 p x ∧ Best p x

/-- The solver returns as many numbers as it gets. -/
def Sized (S : SolverAD K) : Prop := ∀ p, (S p).2.length = p.x0.length

/-- The numerical solvers return, with as many numbers as they get. -/
def SizedNum (S : SolverNum K) : Prop :=
  (∀ f p, ∃ b x, S.find f p = .ok (b, x) ∧ x.length = p.x0.length) ∧
  ∀ p, ∃ b x, S.optimise p = .ok (b, x) ∧ x.length = p.x0.length

/-- Bounds and starting points of the vehicle have the advertised size. -/
structure Car.Proper (car : Car K I C D) : Prop where
  guess : car.guess.length = car.nVars
  getX : ∀ i c v, (car.getX i c v).length = car.nVars
  b1 : car.bounds.1.length = car.nVars
  b2 : car.bounds.2.length = car.nVars
  a1 : car.boundsAcc.1.length = car.nVars
  a2 : car.boundsAcc.2.length = car.nVars
  k1 : car.boundsBrake.1.length = car.nVars
  k2 : car.boundsBrake.2.length = car.nVars

/-- A solution is a steady state of the car: for some variables within the bounds the equations of the
car at its speed and accelerations (in units of the car) are satisfied, inputs and controls are those of
these equations, and the rates of change are those of the car for these inputs and controls. -/
def IsSteady [Field K] [LE K] (tol : K) (car : Car K I C D) (b : List K × List K)
    (s : Solution K I C D) : Prop :=
  ∃ x c, Within tol b.1 x b.2 ∧
    car.eqs x (s.ax / car.units) (s.ay / car.units) s.v = (c, s.inputs, s.controls) ∧
    Within tol car.cBounds.1 c car.cBounds.2 ∧ s.rate = car.rate s.inputs s.controls

/-- The car has a steady state at this speed with these accelerations, with its variables within `b`. -/
def Holds [Field K] [LE K] (car : Car K I C D) (b : List K × List K) (v ax ay : K) : Prop :=
  ∃ x, Within 0 b.1 x b.2 ∧
    Within 0 car.cBounds.1 (car.eqs x (ax / car.units) (ay / car.units) v).1 car.cBounds.2

/-- All four bounds are at least 0.1 units away from the accelerations found. -/
def Clear [Field K] [LinearOrder K] (s : LatState K) (ax ay : K) : Prop :=
  1 / 10 ≤ |s.lx - ax| ∧ 1 / 10 ≤ |s.ux - ax| ∧ 1 / 10 ≤ |s.ly - ay| ∧ 1 / 10 ≤ |s.uy - ay|

end Verif.Steady
