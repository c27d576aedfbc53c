import Verif.Model.Kerb
import Mathlib.Algebra.BigOperators.Intervals

/-! Vocabulary for the properties of kerbs. -/

set_option autoImplicit false

namespace Verif.Kerbs

variable {K : Type*} [Field K] [LinearOrder K]

/-- Samples `a, ..., b - 1` form a maximal stretch of at least two samples above 80 %, and sample `b`
is the first one after it. -/
structure IsStretch (n : Nat → K) (a b : Nat) : Prop where
  two : a + 2 ≤ b
  above : ∀ m, a ≤ m → m < b → 8 / 10 < n m
  ends : n b ≤ 8 / 10
  begins : a = 0 ∨ n (a - 1) ≤ 8 / 10

/-- Mean over `[s a, s b]` (trapezoidal rule on the samples) of the curvature weighted with the
distance of the racing line from the middle of the track, positive towards the side of the kerb. -/
def meanInward (s n kappa : Nat → K) (side : Int) (a b : Nat) : K :=
  (∑ m ∈ Finset.Ico a b, (s (m + 1) - s m) *
    ((side : K) * (n m - 1 / 2) * kappa m + (side : K) * (n (m + 1) - 1 / 2) * kappa (m + 1)) / 2)
      / (s b - s a)

/-- Kerbs follow each other without overlapping. -/
def Ordered (ks : List (Kerb K)) : Prop := ks.Pairwise fun a b => a.finish ≤ b.start

/-- Kerbs follow each other with a gap of at least `gap`. -/
def Separated (gap : K) (ks : List (Kerb K)) : Prop :=
  ks.Pairwise fun a b => a.finish + gap ≤ b.start

end Verif.Kerbs
