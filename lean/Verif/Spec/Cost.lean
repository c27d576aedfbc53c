import Verif.Spec.Transcription
import Verif.Model.Cost
import Mathlib.Algebra.BigOperators.Group.Finset.Defs

/-! Vocabulary of the cost, constraint and lap-time properties (C03, C05..C12, C64, C65): elements,
quadratures, penalties and the position of every constraint. Of the model it uses only the data
types, `dtds` (time per metre of an evaluated node) and `integrand` (`dtds` times the quantity). -/

set_option autoImplicit false

namespace Verif.Transcription

open Verif.Control

variable {K : Type*}

/-- Every hypermesh increases and starts at or before every arclength of the problem. -/
def HypermeshCovers [LinearOrder K] (p : Problem K) : Prop :=
  ∀ c ∈ p.controls, c.kind = .hypermesh →
    c.sHypermesh.Pairwise (· < ·) ∧ ∃ x0, c.sHypermesh[0]? = some x0 ∧ ∀ s ∈ p.s, x0 ≤ s

/-- `nd` is node `i` with the vehicle evaluated at the inputs and controls held by `st`. -/
def EvaluatedAt [LinearOrder K] (v : Vehicle K) (p : Problem K) (st : Loaded K) (i : Nat) (nd : Node K) : Prop :=
  ∃ (row : Row K) (si : K) (u : List K), st.inputs[i]? = some row ∧ p.s[i]? = some si ∧
    u.length = st.controls.length ∧
    (∀ (c : Nat) (cv : CV K) (d a : K), st.controls[c]? = some cv → v.controlsDef[c]? = some d →
      u[c]? = some a → ExpectedControl cv d i si a) ∧
    nd = ⟨si, v.eval row u si⟩

/-- The nodes of the problem, evaluated. -/
def EvaluatedNodes [LinearOrder K] (v : Vehicle K) (p : Problem K) (st : Loaded K) (node : Nat → Node K) : Prop :=
  ∀ i, i < p.nPoints → EvaluatedAt v p st i (node i)

/-- The node at the end of element `e`: the next one, or the first one for the closing element. -/
def rightNode (p : Problem K) (e : Nat) : Nat := if e + 1 < p.nPoints then e + 1 else 0

section field
variable [Field K]

/-- Length of element `e`; the closing element ends at the track length. -/
def elementLength (v : Vehicle K) (p : Problem K) (node : Nat → Node K) (e : Nat) : K :=
  if e + 1 < p.nPoints then (node (e + 1)).s - (node e).s else v.trackLength - (node e).s

/-- Quadrature of `g` over the elements before node `n`, weights `1-σ` at the start and `σ` at the
end of each element. -/
def quadratureTo (v : Vehicle K) (p : Problem K) (node : Nat → Node K) (g : Node K → K) (n : Nat) : K :=
  ∑ e ∈ Finset.range n, elementLength v p node e *
    ((1 - p.opts.sigma) * g (node e) + p.opts.sigma * g (node (rightNode p e)))

/-- Quadrature of `g` over the whole mesh. -/
def quadrature (v : Vehicle K) (p : Problem K) (node : Nat → Node K) (g : Node K → K) : K :=
  quadratureTo v p node g p.nElements

/-- Value at node `i` of a full-mesh control. -/
def valueAt (c : CV K) (i : Nat) : K := c.controls.getD i 0

/-- Rate at node `i` of a full-mesh control. -/
def rateAt (c : CV K) (i : Nat) : K := c.dcontrolsDt.getD i 0

/-- Sum over the full-mesh controls. -/
def overFullMesh (f : CV K → K) (cs : List (CV K)) : K := ((cs.filter fun c => c.kind = .fullMesh).map f).sum

/-- Smoothing penalty of the direct form: dissipation times the integral of the squared slope. -/
def slopePenalty (v : Vehicle K) (p : Problem K) (node : Nat → Node K) (c : CV K) : K :=
  ∑ e ∈ Finset.range p.nElements, c.dissipation *
    ((valueAt c (rightNode p e) - valueAt c e) / elementLength v p node e) ^ 2 * elementLength v p node e

/-- Smoothing penalty meant by the derivative form: dissipation times the integral (mean of both
ends) of the squared rate. -/
def ratePenalty (v : Vehicle K) (p : Problem K) (node : Nat → Node K) (c : CV K) : K :=
  ∑ e ∈ Finset.range p.nElements, 1 / 2 * c.dissipation *
    (rateAt c e ^ 2 + rateAt c (rightNode p e) ^ 2) * elementLength v p node e

/-- The penalty of element `e` as the derivative form computes it (disagreement C08): the left end of every inner element is taken
at the first node. -/
def codedRatePenalty (v : Vehicle K) (p : Problem K) (node : Nat → Node K) (c : CV K) (e : Nat) : K :=
  1 / 2 * c.dissipation * (rateAt c (if e + 1 < p.nPoints then 0 else e) ^ 2 + rateAt c (rightNode p e) ^ 2) *
    elementLength v p node e

/-- Quadrature as coded for integral quantity `q` (disagreement C11): weights of the closing element swapped. -/
def codedIntegral (v : Vehicle K) (p : Problem K) (node : Nat → Node K) (q : Nat) : K :=
  ∑ e ∈ Finset.range p.nElements, elementLength v p node e *
    (if e + 1 < p.nPoints then
      (1 - p.opts.sigma) * integrand v q (node e) + p.opts.sigma * integrand v q (node (rightNode p e))
    else (1 - p.opts.sigma) * integrand v q (node (rightNode p e)) + p.opts.sigma * integrand v q (node e))

/-! ### The constraints -/

/-- Number of constraints of an element: one per input but the time, the extra ones, and one per
full-mesh control in the derivative form. -/
def rowsPerElement (v : Vehicle K) (p : Problem K) : Nat :=
  v.nInputs - 1 + v.nExtra + (if p.isDirect then 0 else nFullMesh p.controls)

/-- Number of constrained integral quantities. -/
def nConstrained (qs : List (Quantity K)) : Nat := (qs.filter fun q => q.restrict).length

/-- Constraint vector `c` of problem `p` (without the cost) at the evaluated nodes and loaded
controls: what every row is. -/
structure RowsAre (v : Vehicle K) (p : Problem K) (controls : List (CV K)) (node : Nat → Node K)
    (value : Nat → K) (c : List K) : Prop where
  size : c.length = p.nElements * rowsPerElement v p + nConstrained p.quantities
  /-- integration of the states over element `e` -/
  time : ∀ (e k q : Nat), e < p.nElements → v.timeIds[k]? = some q →
    c[e * rowsPerElement v p + k]? = some ((node (rightNode p e)).eq.states q - (node e).eq.states q
      - elementLength v p node e * ((1 - p.opts.sigma) * (node e).eq.dstates q
          + p.opts.sigma * (node (rightNode p e)).eq.dstates q))
  /-- algebraic equations at the end of element `e` -/
  algebraic : ∀ (e k q : Nat), e < p.nElements → v.algIds[k]? = some q →
    c[e * rowsPerElement v p + v.timeIds.length + k]? =
      some ((node (rightNode p e)).eq.dstates q / dtds v (node (rightNode p e)).eq)
  /-- extra constraints at the end of element `e` -/
  extra : ∀ (e k : Nat), e < p.nElements → k < v.nExtra →
    c[e * rowsPerElement v p + (v.nInputs - 1) + k]? = some ((node (rightNode p e)).eq.extra k)
  /-- integration of the full-mesh controls over element `e` (derivative form) -/
  control : p.isDirect = false → ∀ (e j : Nat) (cv : CV K), e < p.nElements → controls[j]? = some cv →
    cv.kind = .fullMesh →
    c[e * rowsPerElement v p + (v.nInputs - 1 + v.nExtra) + nFullMesh (controls.take j)]? =
      some (valueAt cv (rightNode p e) - valueAt cv e - elementLength v p node e *
        ((1 - p.opts.sigma) * rateAt cv e * dtds v (node e).eq
          + p.opts.sigma * rateAt cv (rightNode p e) * dtds v (node (rightNode p e)).eq))
  /-- constrained integral quantities -/
  quantities : ∀ (k : Nat) (q : Quantity K), p.quantities[k]? = some q → q.restrict = true →
    c[p.nElements * rowsPerElement v p + nConstrained (p.quantities.take k)]? = some (value k)

/-- Constraint bounds of problem `p`: what the bounds of every row are, at the same positions. -/
structure BoundsAre (v : Vehicle K) (p : Problem K) (b : List (K × K)) : Prop where
  size : b.length = p.nElements * rowsPerElement v p + nConstrained p.quantities
  time : ∀ (e k : Nat), e < p.nElements → k < v.timeIds.length →
    b[e * rowsPerElement v p + k]? = some (0, 0)
  algebraic : ∀ (e k : Nat), e < p.nElements → k < v.algIds.length →
    b[e * rowsPerElement v p + v.timeIds.length + k]? = some (0, 0)
  extra : ∀ (e k : Nat) (sr : K), e < p.nElements → k < v.nExtra → p.s[rightNode p e]? = some sr →
    b[e * rowsPerElement v p + (v.nInputs - 1) + k]? = some (v.extraLb sr k, v.extraUb sr k)
  control : p.isDirect = false → ∀ (e j : Nat) (cv : CV K), e < p.nElements → p.controls[j]? = some cv →
    cv.kind = .fullMesh →
    b[e * rowsPerElement v p + (v.nInputs - 1 + v.nExtra) + nFullMesh (p.controls.take j)]? = some (0, 0)
  quantities : ∀ (k : Nat) (q : Quantity K), p.quantities[k]? = some q → q.restrict = true →
    b[p.nElements * rowsPerElement v p + nConstrained (p.quantities.take k)]? =
      some (q.lowerBound, q.upperBound)

end field

end Verif.Transcription
