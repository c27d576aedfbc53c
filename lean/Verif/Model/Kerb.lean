import Verif.Basic
import Mathlib.Algebra.Order.Field.Basic
import Mathlib.Data.List.Lemmas

/-!
# Kerbs

Model of `Kerb` (src/core/vehicles/kerb.h) and of the part of `Track_by_polynomial` that widens the
track with the kerbs in use (src/core/vehicles/track_by_polynomial.hpp). Scalars are a linearly
ordered field (no rounding).
-/

set_option autoImplicit false

namespace Verif.Kerbs

/-- `Kerb::Kerb_element`, kerb.h:23-29. -/
structure Kerb (K : Type*) where
  start : K
  finish : K
  width : K
  used : Bool
  deriving DecidableEq

variable {K : Type*} [Field K] [LinearOrder K]

/-- `Kerb::append_kerb`, kerb.h:42-58. -/
def appendKerb (ks : List (Kerb K)) (k : Kerb K) : Res (List (Kerb K)) :=
  match ks.getLast? with
  | none => .ok (ks ++ [k])
  | some back =>
    if k.start < back.finish then .throw
    else if k.start > k.finish - 1 / 10 ^ 8 then .throw
    else .ok (ks ++ [k])

/-- A client appending kerbs one after the other and carrying on after a rejected one (the vector is
left as it was by a throwing `append_kerb`, kerb.h:46-54). -/
def appendAll (ks : List (Kerb K)) : List (Kerb K) → List (Kerb K)
  | [] => ks
  | k :: rest =>
    match appendKerb ks k with
    | .ok ks' => appendAll ks' rest
    | _ => appendAll ks rest

/-- `trapz(x, y)` of the lion library (not part of /repo): trapezoidal rule on the samples. Used at
kerb.h:112. -/
def trapz : List (K × K) → K
  | [] => 0
  | [_] => 0
  | p :: q :: rest => (q.1 - p.1) * (p.2 + q.2) / 2 + trapz (q :: rest)

/-- A sample of the racing line: arclength, lateral displacement fraction, curvature (kerb.h:77-84). -/
structure Sample (K : Type*) where
  s : K
  n : K
  kappa : K

/-- `Kerb::Direction::outside`, kerb.h:14. (`inside` is -1.) -/
def outside : Int := 1

/-- The body of `Kerb::compute` that closes a kerb, kerb.h:97-128. `cur` holds the three vectors
`current_kerb_*` sample by sample, the closing sample included; it is never empty here. The division
is by the length of the kerb (in C++ a zero length gives an infinity or a NaN, in the model 0;
theorems assume increasing arclengths). -/
def closeKerb (side : Int) (width : K) (use : Bool) (exterior : Int) (cur : List (Sample K)) :
    Res (Kerb K) :=
  match cur.head?, cur.getLast? with
  | some a, some b =>
    let integral := trapz (cur.map fun p => (p.s, (side : K) * (p.n - 1 / 2) * p.kappa))
    let interior := integral / (b.s - a.s) > 1 / 10 ^ 3
    let isUsed : Bool := if interior then false else true
    let direction : Int := if interior then outside else exterior
    .ok ⟨a.s, b.s, (direction : K) * width, isUsed && use⟩
  | _, _ => .ub

/-- The loop of `Kerb::compute`, kerb.h:85-140, from sample `i` on. `fuel` is the number of samples
left. The vectors are read with `operator[]`; the sizes are only compared in an `assert`
(kerb.h:79-80), so shorter vectors are undefined behaviour. -/
def computeLoop (s n kappa : List K) (side : Int) (width : K) (use : Bool) (exterior : Int) :
    Nat → Nat → List (Sample K) → List (Kerb K) → Res (List (Kerb K))
  | 0, _, _, ks => .ok ks
  | fuel + 1, i, cur, ks =>
    (idx n i).bind fun ni =>
      if ni > 8 / 10 then
        (idx s i).bind fun si => (idx kappa i).bind fun ki =>
          computeLoop s n kappa side width use exterior fuel (i + 1) (cur ++ [⟨si, ni, ki⟩]) ks
      else if cur.length > 1 then
        (idx s i).bind fun si => (idx kappa i).bind fun ki =>
          (closeKerb side width use exterior (cur ++ [⟨si, ni, ki⟩])).bind fun k =>
            (appendKerb ks k).bind fun ks' =>
              computeLoop s n kappa side width use exterior fuel (i + 1) [] ks'
      else
        computeLoop s n kappa side width use exterior fuel (i + 1) [] ks

/-- `Kerb::compute` on an empty `Kerb`, kerb.h:77-141 (the constructor at kerb.h:34-37). -/
def compute (s n kappa : List K) (side : Int) (width : K) (use : Bool) (exterior : Int) :
    Res (List (Kerb K)) :=
  computeLoop s n kappa side width use exterior s.length 0 [] []

/-- The test at kerb.h:148: `s` is on the kerb up to 1e-8. -/
def onKerb (tol : K) (s : K) (k : Kerb K) : Prop := s > k.start - tol ∧ s < k.finish + tol

instance (tol s : K) (k : Kerb K) : Decidable (onKerb tol s k) := by
  unfold onKerb; infer_instance

/-- `Kerb::evaluate_generic`, kerb.h:143-157. -/
def evaluate (display : Bool) (s : K) : List (Kerb K) → K
  | [] => 0
  | k :: ks =>
    if onKerb (1 / 10 ^ 8) s k then (if display || k.used then k.width else 0)
    else evaluate display s ks

/-- The loop over the kerbs of one side for one sample, track_by_polynomial.hpp:95-100 (left) and
102-107 (right): the limit at arclength `s`. -/
def augment (s limit : K) : List (Kerb K) → K
  | [] => limit
  | k :: ks =>
    if onKerb (1 / 10 ^ 12) s k ∧ k.used = true then limit + k.width
    else augment s limit ks

/-- (2) of the constructor from a preprocessor, track_by_polynomial.hpp:92-108: all the samples
of one side. `limits[i]` is read and written for every index of `s`. -/
def augmentAll (ks : List (Kerb K)) : List K → List K → Res (List K)
  | [], limits => .ok limits
  | _ :: _, [] => .ub
  | s :: ss, w :: ws => (augmentAll ks ss ws).bind fun r => .ok (augment s w ks :: r)

end Verif.Kerbs
