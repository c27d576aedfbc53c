import Verif.Spec.Cost
import Verif.Model.LapSolve

/-! Vocabulary of the properties of a computed lap (C188..C192): what is assumed of the optimiser,
and what it means that a lap obeys the equations of the vehicle and the limits. Of the model it uses
the data types, `dtds` and `integrand`; elements, quadratures and penalties are those of
Spec/Cost. -/

set_option autoImplicit false

namespace Verif.Transcription

open Verif.Control

variable {K : Type*}

/-- The optimiser evaluates the cost function at, and returns, vectors of the size of the starting
point, with one multiplier per bound and constraint. -/
structure RightSizes (opt : Optimiser K) : Prop where
  x : ∀ nlp, (opt nlp).x.length = nlp.start.length
  zl : ∀ nlp, (opt nlp).zl.length = nlp.start.length
  zu : ∀ nlp, (opt nlp).zu.length = nlp.start.length
  lambda : ∀ nlp, (opt nlp).lambda.length = nlp.conBounds.length
  visited : ∀ nlp, ∀ y ∈ (opt nlp).visited, y.length = nlp.start.length

section
variable [Field K] [LinearOrder K]

/-- Every entry of `x` is within its bounds, up to `tol`. -/
def Within (tol : K) (x : List K) (bounds : List (K × K)) : Prop :=
  ∀ (k : Nat) (a l u : K), x[k]? = some a → bounds[k]? = some (l, u) → l - tol ≤ a ∧ a ≤ u + tol

/-- When the optimiser reports success, the variables it returns are within their bounds up to
`tolB` and the constraints there within theirs up to `tolC`. -/
def Reliable (tolB tolC : K) (opt : Optimiser K) : Prop :=
  ∀ nlp cost c, (opt nlp).success = true → nlp.value (opt nlp).x = .ok (cost :: c) →
    Within tolB (opt nlp).x nlp.bounds ∧ Within tolC c nlp.conBounds

/-- When the optimiser reports success, no vector that is within all bounds has a lower cost than
the one returned. -/
def Minimises (opt : Optimiser K) : Prop :=
  ∀ nlp cost c y cost' c', (opt nlp).success = true → nlp.value (opt nlp).x = .ok (cost :: c) →
    y.length = nlp.start.length → Within 0 y nlp.bounds → nlp.value y = .ok (cost' :: c') →
    Within 0 c' nlp.conBounds → cost ≤ cost'

/-- The vehicle does not look at the clock: two sets of inputs that differ at most in the time give
the same derivatives, extra constraints and integral quantities, and the same integrated states. -/
structure ClockFree (v : Vehicle K) : Prop where
  same : ∀ row row' u s, (∀ j, j < v.nInputs → j ≠ v.iTime → row j = row' j) →
    (v.eval row u s).dstates = (v.eval row' u s).dstates ∧ (v.eval row u s).extra = (v.eval row' u s).extra ∧
    (v.eval row u s).integrals = (v.eval row' u s).integrals ∧
    ∀ q ∈ v.timeIds, (v.eval row u s).states q = (v.eval row' u s).states q

/-- Inputs and controls over the mesh of problem `p`, with the vehicle evaluated at its nodes, obey
the equations of motion up to `tolC` and all limits up to `tolB` (variables) and `tolC`
(constraints). -/
structure Obeys (v : Vehicle K) (p : Problem K) (tolB tolC : K) (inputs : List (Row K))
    (controls : List (CV K)) (node : Nat → Node K) : Prop where
  /-- the vehicle is between the edges of the track -/
  lateral : ∀ (i : Nat) (row : Row K) (si : K), Optimised p i → inputs[i]? = some row →
    p.s[i]? = some si →
    -(v.leftLimit si) - tolB ≤ row (v.iTime + 1) ∧ row (v.iTime + 1) ≤ v.rightLimit si + tolB
  /-- the other inputs are within the bounds of the options -/
  inputs : ∀ (i j : Nat) (row : Row K), Optimised p i → j < v.nInputs → j ≠ v.iTime →
    j ≠ v.iTime + 1 → inputs[i]? = some row →
    p.opts.inputsLb j - tolB ≤ row j ∧ row j ≤ p.opts.inputsUb j + tolB
  /-- and so are the controls -/
  full : ∀ (i c : Nat) (cv : CV K) (a : K), Optimised p i → controls[c]? = some cv →
    cv.kind = .fullMesh → cv.controls[i]? = some a →
    p.opts.controlsLb c - tolB ≤ a ∧ a ≤ p.opts.controlsUb c + tolB
  other : ∀ (c k : Nat) (cv : CV K) (a : K), controls[c]? = some cv →
    (cv.kind = .constant ∨ cv.kind = .hypermesh) → cv.controls[k]? = some a →
    p.opts.controlsLb c - tolB ≤ a ∧ a ≤ p.opts.controlsUb c + tolB
  /-- the rates of the controls are within the bounds of the vehicle (derivative form) -/
  rates : p.isDirect = false → ∀ (i c : Nat) (cv : CV K) (a l u : K), Optimised p i →
    controls[c]? = some cv → cv.kind = .fullMesh → cv.dcontrolsDt[i]? = some a →
    v.dcontrolsLb[c]? = some l → v.dcontrolsUb[c]? = some u → l - tolB ≤ a ∧ a ≤ u + tolB
  /-- over every element the states change by their derivatives -/
  dynamics : ∀ (e q : Nat), e < p.nElements → q ∈ v.timeIds →
    |(node (rightNode p e)).eq.states q - (node e).eq.states q - elementLength v p node e *
      ((1 - p.opts.sigma) * (node e).eq.dstates q + p.opts.sigma * (node (rightNode p e)).eq.dstates q)| ≤ tolC
  /-- the algebraic equations hold -/
  algebraic : ∀ (e q : Nat), e < p.nElements → q ∈ v.algIds →
    |(node (rightNode p e)).eq.dstates q / dtds v (node (rightNode p e)).eq| ≤ tolC
  /-- the extra constraints of the vehicle are within their bounds -/
  extra : ∀ (e k : Nat) (sr : K), e < p.nElements → k < v.nExtra → p.s[rightNode p e]? = some sr →
    v.extraLb sr k - tolC ≤ (node (rightNode p e)).eq.extra k ∧
      (node (rightNode p e)).eq.extra k ≤ v.extraUb sr k + tolC
  /-- the controls are the integrals of their rates (derivative form) -/
  integrated : p.isDirect = false → ∀ (e c : Nat) (cv : CV K), e < p.nElements → controls[c]? = some cv →
    cv.kind = .fullMesh →
    |valueAt cv (rightNode p e) - valueAt cv e - elementLength v p node e *
      ((1 - p.opts.sigma) * rateAt cv e * dtds v (node e).eq
        + p.opts.sigma * rateAt cv (rightNode p e) * dtds v (node (rightNode p e)).eq)| ≤ tolC
  /-- the constrained integral quantities are within the requested bounds -/
  quantities : ∀ (k : Nat) (q : Quantity K), p.quantities[k]? = some q → q.restrict = true →
    q.lowerBound - tolC ≤ codedIntegral v p node k ∧ codedIntegral v p node k ≤ q.upperBound + tolC

/-- What is added to the time of a lap in the cost: the smoothing penalty of the direct form, and
that of the derivative form as coded (disagreement C08). -/
def smoothing (v : Vehicle K) (p : Problem K) (node : Nat → Node K) (controls : List (CV K)) : K :=
  if p.isDirect then overFullMesh (slopePenalty v p node) controls
  else overFullMesh (fun c => ∑ e ∈ Finset.range p.nElements, codedRatePenalty v p node c e) controls

/-- The time from the first node to the end of the lap. -/
def lapDuration (v : Vehicle K) (p : Problem K) (node : Nat → Node K) : K :=
  quadrature v p node fun nd => dtds v nd.eq

/-- Inputs and controls start as those of the problem (open simulations). -/
def SameStart (v : Vehicle K) (p : Problem K) (inputs : List (Row K)) (controls : List (CV K)) : Prop :=
  (∀ row row', inputs[0]? = some row → p.inputs[0]? = some row' →
    ∀ j, j < v.nInputs → j ≠ v.iTime → row j = row' j) ∧
  ∀ (c : Nat) (cv cv' : CV K), controls[c]? = some cv → p.controls[c]? = some cv' → cv'.kind = .fullMesh →
    cv.controls[0]? = cv'.controls[0]? ∧ cv.dcontrolsDt[0]? = cv'.dcontrolsDt[0]?

end

end Verif.Transcription
