import Verif.Model.LapVehicles
import Verif.Model.Pattern

/-!
# The commands `steady_state` and `gg_diagram`

Models src/main/c/fastestlapc.cpp:1064-1125. The solver is the one of Model/SteadyState. The arrays of the
caller are lists: writing beyond their end is undefined.
-/

set_option autoImplicit false

namespace Verif.SteadyVehicles

/-- The arrays of the caller after a command, and how it ended (fastestlapc.cpp:14-28, 1078, 1110: the exceptions
are thrown on). -/
structure After (M : Type) where
  mem : M
  result : Res Unit

/-- `std::copy` of a whole array to the start of an array of the caller, fastestlapc.cpp:1073-1074. -/
def copyTo (src dst : List ℝ) : Res (List ℝ) :=
  if src.length ≤ dst.length then .ok (src ++ dst.drop src.length) else .ub

/-- What the commands read from an entry of the tables of vehicles: `cartesian_ad` of the vehicle, with the number
of inputs and controls of its type, fastestlapc.cpp:1065-1067, 1085, 1089. -/
structure Entry where
  car : Steady.Car ℝ (Nat → ℝ) (Nat → ℝ) (List ℝ)
  nInputs : Nat
  nControls : Nat

/-- The F1 car as an entry, fastestlapc.cpp:1089. -/
noncomputable def f1Entry (c : F1.Car) (bias0 : ℝ) (junk : Nat → ℝ) (junkLimits : Nat → F1.Limits) : Entry :=
  ⟨LapVehicles.f1Steady c bias0 junk junkLimits, F1.nInputs, F1.nControls⟩

/-- The kart as an entry, fastestlapc.cpp:1085. -/
noncomputable def kartEntry (solve : Road.Vec3 × Road.Vec3 × Road.Vec3 → Road.Vec3 → Road.Vec3) (c : Kart.Vehicle)
    (junkQ junkU : Nat → ℝ) : Entry :=
  ⟨LapVehicles.kartSteady solve c junkQ junkU, Kart.nInputs, Kart.nControls⟩

/-- The end of `compute_steady_state`, fastestlapc.cpp:1070-1074. -/
def deliver (e : Entry) (s : Steady.Solution ℝ (Nat → ℝ) (Nat → ℝ) (List ℝ)) (mem : List ℝ × List ℝ) :
    After (List ℝ × List ℝ) :=
  if s.solved = false then ⟨mem, .throw⟩ else
  match copyTo ((List.range e.nInputs).map s.inputs) mem.1 with
  | .ok a =>
    match copyTo ((List.range e.nControls).map s.controls) mem.2 with
    | .ok b => ⟨(a, b), .ok ()⟩
    | _ => ⟨(a, mem.2), .ub⟩
  | _ => ⟨mem, .ub⟩

/-- `compute_steady_state`, fastestlapc.cpp:1064-1075; `mem` are the arrays of inputs and controls of the caller. -/
noncomputable def computeSteady (S : Steady.SolverAD ℝ) (e : Entry) (v ax ay : ℝ) (mem : List ℝ × List ℝ) :
    After (List ℝ × List ℝ) :=
  match Steady.solveAD e.car S v ax ay none with
  | .ok s => deliver e s mem
  | .throw => ⟨mem, .throw⟩
  | .ub => ⟨mem, .ub⟩

/-- The vehicle with a name, karts before F1 cars, fastestlapc.cpp:1083-1089, 1115-1121. -/
def vehicleNamed (karts f1s : Name → Option Entry) (name : Name) : Option Entry :=
  match karts name with
  | some e => some e
  | none => f1s name

/-- `steady_state`, fastestlapc.cpp:1078-1093: without a vehicle with the name nothing happens. -/
noncomputable def steadyState (S : Steady.SolverAD ℝ) (karts f1s : Name → Option Entry) (name : Name) (v ax ay : ℝ)
    (mem : List ℝ × List ℝ) : After (List ℝ × List ℝ) :=
  match vehicleNamed karts f1s name with
  | some e => computeSteady S e v ax ay mem
  | none => ⟨mem, .ok ()⟩

/-- The loop of `compute_gg_diagram`, fastestlapc.cpp:1102-1107, from point `i` on; `n` points are left. The
arrays are those of the lateral, the maximum and the minimum longitudinal accelerations. -/
def writePoints (mx mn : List (Steady.Solution ℝ (Nat → ℝ) (Nat → ℝ) (List ℝ))) (i : Nat) :
    Nat → List ℝ × List ℝ × List ℝ → After (List ℝ × List ℝ × List ℝ)
  | 0, mem => ⟨mem, .ok ()⟩
  | n + 1, mem =>
    match mx[i]?, mn[i]? with
    | some a, some b =>
      if i < mem.1.length ∧ i < mem.2.1.length ∧ i < mem.2.2.length then
        writePoints mx mn (i + 1) n (mem.1.set i a.ay, mem.2.1.set i a.ax, mem.2.2.set i b.ax)
      else ⟨mem, .ub⟩
    | _, _ => ⟨mem, .ub⟩

/-- `compute_gg_diagram`, fastestlapc.cpp:1096-1108. The number of points is an `int` in the code: negative numbers
are not modelled. -/
noncomputable def computeDiagram (S : Steady.SolverAD ℝ) (e : Entry) (v : ℝ) (n : Nat)
    (mem : List ℝ × List ℝ × List ℝ) : After (List ℝ × List ℝ × List ℝ) :=
  match Steady.ggAD e.car S v n with
  | .ok r => writePoints r.1 r.2 0 n mem
  | .throw => ⟨mem, .throw⟩
  | .ub => ⟨mem, .ub⟩

/-- `gg_diagram`, fastestlapc.cpp:1110-1125. -/
noncomputable def ggDiagram (S : Steady.SolverAD ℝ) (karts f1s : Name → Option Entry) (name : Name) (v : ℝ) (n : Nat)
    (mem : List ℝ × List ℝ × List ℝ) : After (List ℝ × List ℝ × List ℝ) :=
  match vehicleNamed karts f1s name with
  | some e => computeDiagram S e v n mem
  | none => ⟨mem, .ok ()⟩

end Verif.SteadyVehicles
